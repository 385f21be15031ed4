{"id": "C01", "title": "Read check decision table", "statement": "For a Checker built from a name->permission dictionary, check/check_getattr(obj, name) grants exactly when: the name is declared public; or it is declared with another permission and the current thread's interaction says yes; or it is undeclared and listed as available by default; or it is an undeclared '__iter__' that obj does not have. A declared permission refused by the interaction raises Unauthorized(obj, name, permission); every other undeclared name raises ForbiddenAttribute(name, obj); a needed but missing interaction raises AttributeError, never grants.", "quantifier": "every permission dictionary, object, attribute name, policy behaviour, interaction state and default list; both implementations", "why_tests_cant": "The name and permission spaces and the policy's behaviour are unbounded; a test samples a handful of names.", "anchors": ["src/zope/security/checker.py:CheckerPy.check", "src/zope/security/_zope_security_checker.c:Checker_check_int", "src/zope/security/_zope_security_checker.c:checkPermission"]}
{"id": "C02", "title": "Attribute writes are denied by default", "statement": "check_setattr(obj, name) grants only if the set dictionary declares the name public or declares a permission the interaction grants; nothing is writable by default (not even names readable by default), an undeclared name always raises ForbiddenAttribute, and read permissions never influence it.", "quantifier": "every checker, object, name, policy and state; both implementations", "why_tests_cant": "Needs all names and all read dictionaries at once.", "anchors": ["src/zope/security/checker.py:CheckerPy.check_setattr", "src/zope/security/_zope_security_checker.c:Checker_check_setattr"]}
{"id": "C03", "title": "C and Python checkers decide alike", "statement": "For the same dictionaries and state, the compiled Checker and the pure-Python Checker return the same outcome and leave the same state for check, check_getattr and check_setattr, provided no dictionary value is None, the default-available list holds only names starting with two underscores, and probing '__iter__' fails only with AttributeError. Each of the three provisos is necessary.", "quantifier": "every pair of dictionaries, object, name, policy and state", "why_tests_cant": "Two implementations must agree on an infinite input space; unit tests run the same samples against each.", "anchors": ["src/zope/security/checker.py:CheckerPy", "src/zope/security/_zope_security_checker.c:Checker_check_int", "src/zope/security/_zope_security_checker.c:Checker_check_setattr"]}
{"id": "C04", "title": "CombinedChecker truth table", "statement": "CombinedChecker(c1, c2) follows its documented table for reads and writes: ok if c1 is ok (c2 not consulted), otherwise c2's ok, Unauthorized if either says Unauthorized, ForbiddenAttribute only if both do; here c1 stands for what c1's own dictionaries require, which is all of an ordinary Checker, while the second half of a c1 that is itself a CombinedChecker is never asked. Combining fails exactly if c1 is not a Checker.", "quantifier": "every pair of checkers, object, name and state, including stateful policies and foreign second checkers", "why_tests_cant": "Outcome depends on both checkers' arbitrary behaviour and side effects.", "anchors": ["src/zope/security/checker.py:CombinedChecker"]}
{"id": "C05", "title": "Right-nested combination is a logical or", "statement": "A chain c1 or (c2 or (... cn)) of CombinedChecker grants iff some link grants, raises ForbiddenAttribute iff every link does, and otherwise raises the Unauthorized of the last link that said Unauthorized before only forbidding links remained to be tried, with links after a granting one never consulted.", "quantifier": "chains of any length of checkers whose checks do not change state", "why_tests_cant": "Chain length is unbounded.", "anchors": ["src/zope/security/checker.py:CombinedChecker.check", "src/zope/security/checker.py:CombinedChecker.check_setattr"]}
{"id": "C06", "title": "What checker.proxy returns", "statement": "checker.proxy(value) returns value itself when it is already a security proxy or its type is configured as not needing protection; otherwise a fresh proxy around exactly value, with the object's own __Security_checker__ if it has one and else the checker registered for its type. It never returns a proxy around another object and never double wraps.", "quantifier": "every value, registry content and checker factory behaviour; both implementations", "why_tests_cant": "Depends on the registry, arbitrary factories and arbitrary attribute code.", "anchors": ["src/zope/security/checker.py:CheckerPy.proxy", "src/zope/security/_zope_security_checker.c:Checker_proxy"]}
{"id": "C07", "title": "selectChecker's answer", "statement": "Whenever selectChecker(obj) returns, it returns None or a Checker; an unregistered type gets the deny-by-default checker; a type registered with a Checker gets exactly that one; NoProxy gives None; a factory is applied repeatedly until it yields a Checker, None or NoProxy, and its exceptions propagate. The answer depends on type(obj) only through the registry.", "quantifier": "every object, registry and factory behaviour, including factories returning factories and ones that never settle", "why_tests_cant": "Factories are arbitrary code and the loop is unbounded.", "anchors": ["src/zope/security/checker.py:selectCheckerPy", "src/zope/security/_zope_security_checker.c:selectChecker"]}
{"id": "C08", "title": "C and Python selectChecker agree except on exceptions", "statement": "The compiled and pure-Python selectChecker agree on every object unless the object is an Exception instance whose type is unregistered (or registered with the default checker); there the compiled version answers None (unprotected) and the Python version answers the default checker.", "quantifier": "every object, registry and factory behaviour", "why_tests_cant": "Agreement over all registries cannot be sampled.", "anchors": ["src/zope/security/checker.py:selectCheckerPy", "src/zope/security/_zope_security_checker.c:selectChecker"]}
{"id": "C09", "title": "ProxyFactory is idempotent and never swaps checkers", "statement": "ProxyFactory(x) is a proxy around x or x itself; applied to its own result it returns the same object; given a proxy and a different checker it raises TypeError and changes nothing; it never wraps a security proxy in another.", "quantifier": "every object, checker argument, registry and state", "why_tests_cant": "Quantifies over all objects and checkers.", "anchors": ["src/zope/security/checker.py:ProxyFactory"]}
{"id": "C10", "title": "removeSecurityProxy undoes ProxyFactory", "statement": "For any x that is not a security proxy, removeSecurityProxy(ProxyFactory(x, c)) is x for every checker c; removeSecurityProxy is the identity on non-proxies; getChecker of a new proxy is the checker it was built with.", "quantifier": "every object, checker and state", "why_tests_cant": "Round trip over all objects.", "anchors": ["src/zope/security/proxy.py:getObjectPy", "src/zope/security/_proxy.c:module_getObject", "src/zope/security/checker.py:ProxyFactory"]}
{"id": "C11", "title": "Confinement by compiled proxies", "statement": "Code that starts with only security proxies and basic values and may apply any sequence of operations to what it holds never obtains by normal return anything other than: a security proxy, None/NotImplemented/bool/int/str (or a string produced by str()/repr()), a length hint, or an object whose type the registry declared as needing no protection at that moment.", "quantifier": "every finite program of operations, every world of application objects, registry, policy and state", "why_tests_cant": "The claim is about all programs of unbounded length against arbitrary objects.", "anchors": ["src/zope/security/_proxy.c:check1", "src/zope/security/_proxy.c:check2", "src/zope/security/_proxy.c:check2i", "src/zope/security/_proxy.c:proxy_getattro", "src/zope/security/_proxy.c:proxy_richcompare", "docs/proxy.rst"]}
{"id": "C12", "title": "Confinement by pure-Python proxies", "statement": "The same confinement for ProxyPy, for every program that makes no rich comparison of a proxy (ProxyPy returns the wrapped object's raw result), assigns no proxy's _checker anything but one of the package's checkers, and reads _wrapped/_checker from no frame whose self is the proxy. Each of the three exclusions is necessary; assigning _wrapped is harmless to confinement.", "quantifier": "every finite program of operations, every world, registry, policy and state", "why_tests_cant": "The claim is about all programs of unbounded length.", "anchors": ["src/zope/security/proxy.py:ProxyPy", "src/zope/security/proxy.py:_check_name"]}
{"id": "C13", "title": "Complete mediation", "statement": "Whenever an operation on a proxy causes an operation to be carried out on the wrapped object, either it is one of the documented unchecked operations (comparison, hash, truth value, length hint) or the proxy's checker granted, beforehand, exactly the name documented for that operation, and the operation carried out is the requested one with the requested arguments on the wrapped object.", "quantifier": "every operation, argument, checker, world and state; both implementations", "why_tests_cant": "Needs every operation times every checker decision times every argument.", "anchors": ["src/zope/security/_proxy.c:check", "src/zope/security/proxy.py:_check_name", "src/zope/security/proxy.py:_check_name_inplace", "src/zope/security/proxy.py:ProxyPy.__getattribute__"]}
{"id": "C14", "title": "A denied operation has no effect", "statement": "If the checker refuses (any exception), the wrapped object is not operated on: nothing is executed on it, and the state after the operation is the state the check itself left (unchanged for the built-in policies), with the check's exception delivered to the caller.", "quantifier": "every checked operation, argument, checker, world and state; both implementations", "why_tests_cant": "Absence of effects over all operations.", "anchors": ["src/zope/security/_proxy.c:check1", "src/zope/security/_proxy.c:proxy_setattro", "src/zope/security/proxy.py:_check_name"]}
{"id": "C15", "title": "Writes and deletes go through write permissions", "statement": "Setting or deleting an attribute through a proxy succeeds only if check_setattr grants that name; read permission on the name is neither necessary nor sufficient. (False for pure-Python proxies for the two names _wrapped and _checker, which are stored into the proxy without any check.)", "quantifier": "every attribute name, value, checker, world and state; both implementations", "why_tests_cant": "All names, including ones no test tries.", "anchors": ["src/zope/security/_proxy.c:proxy_setattro", "src/zope/security/proxy.py:ProxyPy.__setattr__", "src/zope/security/proxy.py:ProxyPy.__delattr__"]}
{"id": "C16", "title": "str and repr are safe", "statement": "str()/repr() of a proxy never fails because of a refused check: when the check refuses for any reason the caller gets a generic text built only from the wrapped object's class module, class name and address, and the object's own __str__/__repr__ is not run. The one exception: a TypeError raised by the check itself is passed on by a pure-Python proxy (still without running the object's method).", "quantifier": "every checker outcome, object and state; both implementations", "why_tests_cant": "Holds for every way a check can fail.", "anchors": ["src/zope/security/_proxy.c:proxy_str", "src/zope/security/_proxy.c:proxy_repr", "src/zope/security/_proxy.c:default_repr", "src/zope/security/proxy.py:ProxyPy.__str__", "src/zope/security/proxy.py:ProxyPy.__repr__"]}
{"id": "C17", "title": "In-place operators", "statement": "An in-place operator on a compiled proxy returns the same proxy iff the wrapped object returned itself, and otherwise the result protected by its own checker; no existing proxy ever changes what it wraps. (The last part is false for pure-Python proxies: the proxy is re-pointed at the result, visible through all aliases, under the old checker.)", "quantifier": "every operator, operand, checker, world and state", "why_tests_cant": "Aliasing over all histories.", "anchors": ["src/zope/security/_proxy.c:check2i", "src/zope/security/proxy.py:_check_name_inplace"]}
{"id": "C18", "title": "Binary operators and pow choose one operand and name", "statement": "For a binary operator with at least one proxied operand the left proxy is checked with the direct name, else the right proxy with the reflected name; three-argument pow checks the first proxied argument with __pow__, __rpow__ or __3pow__; only that proxy is unwrapped and only its checker is asked.", "quantifier": "every operator, operand pair/triple and checker", "why_tests_cant": "Case split over all operand kinds with arbitrary checkers.", "anchors": ["src/zope/security/_proxy.c:check2", "src/zope/security/_proxy.c:proxy_pow"]}
{"id": "C19", "title": "C and Python proxies behave alike", "statement": "For the operations both implement by unwrap-check-apply-rewrap, compiled and pure-Python proxies produce the same outcome and final state from the same state, given checkers on which both agree and a wrapped object that is not shadowed by the proxy class's own attributes. Listed exceptions: rich comparisons, in-place operators, str/repr.", "quantifier": "every such operation, argument, world and state", "why_tests_cant": "Equivalence of two implementations over all inputs.", "anchors": ["src/zope/security/_proxy.c", "src/zope/security/proxy.py:ProxyPy"]}
{"id": "C20", "title": "isinstance sees through proxies", "statement": "zope.security.proxy.isinstance(ProxyFactory(x), cls) equals builtin isinstance(x, cls) and equals isinstance(x, cls), performs no permission check and cannot raise because of permissions.", "quantifier": "every object, class, checker and state", "why_tests_cant": "All objects and checkers.", "anchors": ["src/zope/security/proxy.py:isinstance"]}
{"id": "C21", "title": "canAccess and canWrite tables", "statement": "canAccess(obj, name) is True iff the check grants, False iff Unauthorized, and re-raises everything else including ForbiddenAttribute; canWrite is True iff the write check grants, False if Unauthorized or if writing is forbidden while reading is granted or Unauthorized, and raises ForbiddenAttribute iff both reading and writing are forbidden; neither performs the operation.", "quantifier": "every object, name, checker behaviour and state", "why_tests_cant": "All outcomes of two arbitrary checks.", "anchors": ["src/zope/security/checker.py:canAccess", "src/zope/security/checker.py:canWrite"]}
{"id": "C22", "title": "canAccess predicts real access", "statement": "canAccess(p, name) answers True exactly when reading name through p passes its security check, and canWrite(p, name) True exactly when assigning passes its check, for every name but '__iter__'. For every name canAccess answers as that check would if, for an undeclared '__iter__', it asked whether the proxy (not the object) has the attribute; so for an iterable object whose checker does not declare '__iter__' canAccess always answers True while access is forbidden, in both builds.", "quantifier": "every proxied object, name, checker, policy that does not distinguish an object from its proxy, and state", "why_tests_cant": "Relates two entry points on all inputs.", "anchors": ["src/zope/security/checker.py:canAccess", "src/zope/security/checker.py:canWrite", "src/zope/security/_proxy.c:proxy_getattro"]}
{"id": "C23", "title": "Interaction lifecycle per thread", "statement": "In any interleaving of newInteraction, endInteraction, restoreInteraction, queries, policy changes and permission checks by any number of threads, what a thread sees (its current interaction, whether calls raise ExistingInteraction or NoInteraction) is that of a private two-slot (current, saved) machine driven by that thread's own calls.", "quantifier": "every number of threads and every interleaving of calls, any policy factory including failing ones", "why_tests_cant": "Histories and schedules are unbounded.", "anchors": ["src/zope/security/management.py:newInteraction", "src/zope/security/management.py:endInteraction", "src/zope/security/management.py:restoreInteraction", "src/zope/security/management.py:queryInteraction"]}
{"id": "C24", "title": "Threads cannot touch each other's interaction", "statement": "No call made by one thread changes the current or saved interaction of another thread.", "quantifier": "every call, state and pair of threads", "why_tests_cant": "All schedules.", "anchors": ["src/zope/security/management.py", "src/zope/security/_definitions.py:thread_local"]}
{"id": "C25", "title": "End/restore laws", "statement": "After endInteraction, restoreInteraction brings back exactly the interaction that was ended; restoring twice is the same as once; ending when none is active discards the saved one so a following restore leaves no interaction; newInteraction succeeds right after endInteraction.", "quantifier": "every starting state and policy", "why_tests_cant": "All starting states.", "anchors": ["src/zope/security/management.py:endInteraction", "src/zope/security/management.py:restoreInteraction"]}
{"id": "C26", "title": "checkPermission entry point", "statement": "management.checkPermission(p, obj, interaction=None): CheckerPublic and None are always granted, with or without an interaction and without asking the policy; any other permission (including the string 'zope.Public') gets exactly the answer of the given interaction or, by default, of the thread's current one, and raises NoInteraction when neither exists.", "quantifier": "every permission, object, interaction and state", "why_tests_cant": "All permissions and policies.", "anchors": ["src/zope/security/management.py:checkPermission"]}
{"id": "C27", "title": "Participation bookkeeping", "statement": "For the built-in policies, at every moment: a participation is in an interaction's list iff its interaction attribute is that interaction; it appears there once; it belongs to at most one interaction; add raises ValueError iff it is already taken and remove raises ValueError iff it is not in that interaction, both without effect when they raise.", "quantifier": "every history of creating interactions, adding and removing participations", "why_tests_cant": "Invariant over all histories.", "anchors": ["src/zope/security/simplepolicies.py:ParanoidSecurityPolicy.add", "src/zope/security/simplepolicies.py:ParanoidSecurityPolicy.remove", "src/zope/security/simplepolicies.py:ParanoidSecurityPolicy.__init__"]}
{"id": "C28", "title": "Built-in policy decisions", "statement": "ParanoidSecurityPolicy grants a permission iff it is public or every participation's principal is the system user (so an interaction with no participations grants everything); PermissiveSecurityPolicy grants everything. Adding a participation can only remove grants, removing one can only add them.", "quantifier": "every interaction content, permission and object", "why_tests_cant": "All participation lists.", "anchors": ["src/zope/security/simplepolicies.py:ParanoidSecurityPolicy.checkPermission", "src/zope/security/simplepolicies.py:PermissiveSecurityPolicy.checkPermission"]}
{"id": "C29", "title": "newInteraction is all-or-nothing for the thread", "statement": "If newInteraction raises, the thread's current interaction is unchanged. Which participations end up bound is exactly: those before the first already-taken (or repeated) one, bound to a discarded interaction. (So the participations themselves are not rolled back.)", "quantifier": "every list of participations and state", "why_tests_cant": "All lists and failure points.", "anchors": ["src/zope/security/management.py:newInteraction", "src/zope/security/simplepolicies.py:ParanoidSecurityPolicy.__init__"]}
{"id": "C30", "title": "Registry history", "statement": "After any history of defineChecker, undefineChecker and lookups, the checker found for a type is the one of the last successful define not followed by an undefine; define raises DuplicationError iff the type is currently registered and TypeError iff it is not a type or module, undefine raises KeyError iff it is not registered, and failing calls change nothing.", "quantifier": "every history of calls on any set of types", "why_tests_cant": "Histories are unbounded.", "anchors": ["src/zope/security/checker.py:defineChecker", "src/zope/security/checker.py:undefineChecker", "src/zope/security/checker.py:getCheckerForInstancesOf"]}
{"id": "C31", "title": "BasicTypes mirrors into the registry", "statement": "Assigning, updating or deleting entries of BasicTypes keeps registry and table in step: along any history of these, of the inherited dict methods (pop, popitem, setdefault, |=), of defineChecker and undefineChecker, every type in BasicTypes always has the same entry in the registry if and only if the history contains no undefineChecker of a type then basic and no insertion by setdefault or |= of an entry the registry lacks; clear always raises and changes nothing.", "quantifier": "every history of BasicTypes operations and defineChecker calls", "why_tests_cant": "Invariant over histories.", "anchors": ["src/zope/security/checker.py:_BasicTypes"]}
{"id": "C32", "title": "_clear restores the default registry", "statement": "After _clear() the registry is the default table overlaid by the current BasicTypes table, whatever happened before, and a second _clear changes nothing.", "quantifier": "every prior history", "why_tests_cant": "All histories.", "anchors": ["src/zope/security/checker.py:_clear"]}
{"id": "C33", "title": "NamesChecker and InterfaceChecker", "statement": "NamesChecker(names, perm, **kw) grants/asks perm for each listed name and kw's permission for the others, declares nothing else, allows no writes; it raises DuplicationError iff a listed name is in kw with a permission that is not the identical object; the order and repetition of names do not matter.", "quantifier": "every name sequence, permission and keyword dictionary", "why_tests_cant": "All sequences.", "anchors": ["src/zope/security/checker.py:NamesChecker", "src/zope/security/checker.py:InterfaceChecker"]}
{"id": "C34", "title": "MultiChecker", "statement": "MultiChecker(specs) succeeds iff no name is given two non-identical permissions, and then maps each name to its one permission and no other name; success and the resulting mapping are independent of the order of specs and of how names are grouped.", "quantifier": "every sequence of specs", "why_tests_cant": "Permutations of unbounded sequences.", "anchors": ["src/zope/security/checker.py:MultiChecker"]}
{"id": "C35", "title": "Declarations: last one wins, nothing else moves", "statement": "After any sequence of protectName and protectSetAttribute calls on a class not registered before, the permission required to read (write) a name is that of the last call for that class and name, with 'zope.Public' meaning public, and no name is readable (writable) by declaration that no call mentioned; read calls never change write permissions nor conversely.", "quantifier": "every sequence of declarations, names and permissions", "why_tests_cant": "Histories are unbounded.", "anchors": ["src/zope/security/protectclass.py:protectName", "src/zope/security/protectclass.py:protectSetAttribute"]}
{"id": "C36", "title": "protectLikeUnto copies by value", "statement": "After protectLikeUnto(C, D) on a class C not registered before, C has exactly D's declarations at that moment, and later declarations on either class do not affect the other; when D is unregistered nothing happens.", "quantifier": "every registry content and later sequence of declarations", "why_tests_cant": "Aliasing over histories.", "anchors": ["src/zope/security/protectclass.py:protectLikeUnto"]}
{"id": "C37", "title": "Declarations on one class do not affect others", "statement": "protectName/protectSetAttribute change the requirement of the declared name for the class declared on and for exactly the classes whose checker has the same dictionary (for example set and frozenset in the default table), and change nothing else; a class first registered by a declaration shares its dictionaries with no other. On a class registered with something that is not a Checker they raise and change nothing.", "quantifier": "every registry in which the class's checker is not shared, and every other type", "why_tests_cant": "All other types and names.", "anchors": ["src/zope/security/protectclass.py:protectName", "src/zope/security/checker.py:_default_checkers"]}
{"id": "C38", "title": "ZCML class directive", "statement": "For classes and modules that are unregistered or have a Checker with dictionaries of their own: a configuration of class and module directives none of which is wrong is carried out without exception, and what a class requires for reading (writing) a name is then what the last directive that has anything to say about it means; attributes and interface names get the read permission, set_attributes and the non-readonly fields of set_schema the write permission, like_class adds the other class's requirements of that moment, and nothing else changes; when no two directives declare the same thing and there is no like_class, their order does not matter. A require that sets nothing, or names attributes without a permission, raises ConfigurationError and then nothing of the whole configuration is carried out.", "quantifier": "every list of subdirectives, interfaces, schemas and permissions", "why_tests_cant": "All configurations.", "anchors": ["src/zope/security/metaconfigure.py:ClassDirective"]}
{"id": "C39", "title": "ZCML module protection", "statement": "module-level allow/require protect exactly the listed attributes and interface names of the module with the given permission ('zope.Public' meaning public), creating the module's checker on first use and extending it afterwards.", "quantifier": "every list of declarations on any modules", "why_tests_cant": "All configurations.", "anchors": ["src/zope/security/metaconfigure.py:protectModule", "src/zope/security/metaconfigure.py:_names", "src/zope/security/metaconfigure.py:allow", "src/zope/security/metaconfigure.py:require"]}
{"id": "C40", "title": "redefinePermission mapping", "statement": "What a permission id stands for is given by the redefinitions read before it, whose own ids are translated too, and is not looked up again: a redefinition changes what exactly one id stands for, the one its 'from' stands for at that moment. A configuration with well-formed ids succeeds exactly when every id occurring in it, apart from 'zope.Public', is registered or defined anywhere in it, and then every id a directive got is 'zope.Public' or registered.", "quantifier": "every sequence of redefinitions and lookups", "why_tests_cant": "Histories of redefinitions.", "anchors": ["src/zope/security/zcml.py:Permission.fromUnicode", "src/zope/security/zcml.py:Permission._validate", "src/zope/security/zcml.py:redefinePermission"]}
{"id": "C41", "title": "Permission vocabularies", "statement": "The permission-id vocabulary contains exactly one term per registered permission, with CheckerPublic as the value for zope.Public and the id otherwise, zope.Public first and the rest in increasing title order; the permissions vocabulary has exactly the registered permissions keyed by id. (Building them fails with ValueError if two ids collide once their non-ASCII characters are escaped, or, for the latter, if one object is registered under two ids.)", "quantifier": "every set of registered permissions", "why_tests_cant": "All sets of permissions.", "anchors": ["src/zope/security/permission.py:PermissionIdsVocabulary", "src/zope/security/permission.py:PermissionsVocabulary"]}
{"id": "C42", "title": "Permission existence", "statement": "permission.checkPermission accepts exactly CheckerPublic and the ids of registered permissions (whose objects are true) and raises ValueError otherwise; allPermissions yields every registered id except zope.Public, each once.", "quantifier": "every set of registered permissions and every id", "why_tests_cant": "All sets of permissions.", "anchors": ["src/zope/security/permission.py:checkPermission", "src/zope/security/permission.py:allPermissions"]}
{"id": "C43", "title": "Trusted and untrusted adapters", "statement": "A trusted adapter factory called with any proxied object builds the adapter on the unproxied objects and returns it proxied; called only with unproxied objects it returns the adapter unproxied; one layer of proxy is removed from every argument, and the caller never receives the raw adapter when any argument was proxied (unless its type needs no protection). A located result has __parent__ set to the (possibly unproxied) first object iff it had none, and a result not providing ILocation is returned inside a LocationProxy.", "quantifier": "every factory, argument list and mix of proxied and unproxied arguments", "why_tests_cant": "All argument lists.", "anchors": ["src/zope/security/adapter.py:LocatingTrustedAdapterFactory", "src/zope/security/adapter.py:TrustedAdapterFactory", "src/zope/security/adapter.py:LocatingUntrustedAdapterFactory", "src/zope/security/adapter.py:assertLocation"]}
{"id": "C44", "title": "Decorated objects' checkers", "statement": "The checker of a decorator proxy is the combination of the checker of the decorator's own type with that of the decorated object (its security proxy's checker if it is proxied, else its own __Security_checker__ or type checker); with only one of them available it is that one, with none an AttributeError; hence, where every check grants or refuses, a name is granted through a proxy iff it is granted by what one of the decorators' types' checkers itself requires (all of an ordinary Checker, the first half of a CombinedChecker) or by the decorated object's checker.", "quantifier": "every decorated object, nested decoration of any depth, registry and state", "why_tests_cant": "Unbounded nesting and arbitrary registries.", "anchors": ["src/zope/security/decorator.py:DecoratedSecurityCheckerDescriptor"]}
{"id": "C45", "title": "Test-interaction context manager", "statement": "testing.interaction(principal): with no interaction active it installs one with exactly that principal for the body and ends it afterwards, whether the body returns or raises; with one active it changes nothing; the body's result or exception is passed through.", "quantifier": "every body and starting state", "why_tests_cant": "All bodies, including raising ones.", "anchors": ["src/zope/security/testing.py:interaction", "src/zope/security/testing.py:create_interaction"]}
{"id": "C46", "title": "Sandbox example policy", "statement": "The example simulation policy grants a permission on an object iff the object's home is in the database and either the permission (or ALL) is listed there for 'any', or there is at least one participation and every participation's token lists that permission; unknown homes get nothing. A permission-map checker requires for each method the permission of the last map entry listing it.", "quantifier": "every set of participations, objects and permissions", "why_tests_cant": "All combinations.", "anchors": ["src/zope/security/examples/sandbox_security.py:SimulationSecurityPolicy.checkPermission", "src/zope/security/examples/sandbox_security.py:PermissionMapChecker"]}
{"id": "C47", "title": "Watching checkers are transparent", "statement": "A logging checker has the outcome and effects of the underlying checker at every verbosity, apart from what it writes to its log, provided repr() of the checked object succeeds without effects; it writes exactly one line per refused check iff verbosity is at least one, and per granted check iff verbosity is above one; if repr() raises, a refused check raises that exception instead of the refusal at every verbosity.", "quantifier": "every verbosity, object, name and underlying check", "why_tests_cant": "All outcomes of an arbitrary check.", "anchors": ["src/zope/security/checker.py:CheckerLoggingMixin", "src/zope/security/checker.py:WatchingChecker"]}
{"id": "C48", "title": "CheckerPublic keeps its identity", "statement": "CheckerPublic is unchanged by ProxyFactory, checker.proxy and being read through any proxy; its own attributes allow only __reduce__ and __module__ besides the always-available names; it cannot be written to.", "quantifier": "every state, registry and checker", "why_tests_cant": "All registries and access paths.", "anchors": ["src/zope/security/checker.py:CheckerPublic", "src/zope/security/checker.py:Global"]}
{"id": "C49", "title": "Default protection of built-in types", "statement": "With the default registry, proxied built-in containers and iterators allow, for every interaction and policy and even with no interaction, exactly the read operations listed for their type plus the always-available names, and no attribute write and no mutating method; basic immutable types are never wrapped.", "quantifier": "every attribute name, policy and interaction state, for each listed type", "why_tests_cant": "All names and policies.", "anchors": ["src/zope/security/checker.py:_default_checkers", "src/zope/security/checker.py:BasicTypes"]}
{"id": "C50", "title": "Concurrent registration", "statement": "When any number of threads call defineChecker concurrently for the same type, at least one succeeds, the registry ends with a checker passed by a successful caller, and a caller that starts after another has finished gets DuplicationError. (That at most one succeeds is false: the membership test and the store are separate steps.)", "quantifier": "every number of threads and every interleaving of the individual steps", "why_tests_cant": "Schedules are unbounded.", "anchors": ["src/zope/security/checker.py:defineChecker"]}
{"id": "C51", "title": "Ordinary users get only public names under the paranoid policy", "statement": "In an interaction under the paranoid policy with at least one non-system participation, an operation through a proxy with ordinary checkers is carried out only if its name is declared public or is available by default.", "quantifier": "every operation, checker, world and state", "why_tests_cant": "All operations and checkers.", "anchors": ["src/zope/security/simplepolicies.py:ParanoidSecurityPolicy.checkPermission", "src/zope/security/checker.py:CheckerPy.check", "src/zope/security/_proxy.c:check"]}
{"id": "C52", "title": "Policy changes affect only later interactions", "statement": "setSecurityPolicy returns the policy in force before and takes effect for interactions created later; existing interactions of any thread keep deciding as before; swapping back restores the original.", "quantifier": "every history of policy changes and interactions", "why_tests_cant": "Histories.", "anchors": ["src/zope/security/management.py:setSecurityPolicy", "src/zope/security/management.py:getSecurityPolicy"]}
{"id": "C53", "title": "Module checkers", "statement": "A module proxied with the default registry is guarded by the checker defined for that very module if there is one and otherwise only its name is readable; defining a checker for one module does not affect another.", "quantifier": "every module, registry and state", "why_tests_cant": "All modules and registries.", "anchors": ["src/zope/security/checker.py:moduleChecker", "src/zope/security/checker.py:_default_checkers"]}
{"id": "C54", "title": "Granting is monotone in declarations", "statement": "Adding a public declaration for a previously undeclared name never turns a granted check of any name into a refused one, and removing every declaration leaves only the always-available names.", "quantifier": "every checker, object, name and state", "why_tests_cant": "All checkers and names.", "anchors": ["src/zope/security/checker.py:CheckerPy.check"]}
{"id": "C55", "title": "Using proxies never changes the security configuration", "statement": "An operation on a proxy (checked or not, granted or refused) changes registrations, permission dictionaries, names available by default, the policy, interactions and participations only through application code that it calls; the package itself never changes them.", "quantifier": "every operation, proxy, checker, world whose own code leaves the configuration alone, and state; both implementations", "why_tests_cant": "A test observes one operation; a silent registry or dictionary write on some rarely used path would go unnoticed.", "anchors": ["src/zope/security/proxy.py:27-55", "src/zope/security/_proxy.c:128-244", "src/zope/security/checker.py:260-290"]}
{"id": "C56", "title": "Concurrent declarations", "statement": "When any number of threads call protectName concurrently for one class, the class's checker never requires anything that was not declared by a returned call or before; if the class had a checker before, no declaration is lost and none fails. (If it had none, a call may return and its declaration be lost, or raise DuplicationError: the lookup of the checker and its registration are separate steps.)", "quantifier": "every number of threads and every interleaving of the individual steps", "why_tests_cant": "Schedules are unbounded.", "anchors": ["src/zope/security/protectclass.py:protectName", "src/zope/security/checker.py:defineChecker"]}
{"id": "C57", "title": "Reference counts in the C extensions", "statement": "Every function that the two extension modules give to the interpreter takes as many references as it releases, apart from the one it returns: the only references never released are one bytes object per use of MAKE_STRING on a name (1, 2 or 3 per check of an undeclared name) and a __Security_checker__ that is None; and the dictionaries in the fields of a checker are lost only by calling __init__ again.", "quantifier": "every function, arguments, state, and every behaviour of the code called (answers, failures, removals)", "why_tests_cant": "Each function has many paths, most of them error paths where an API call fails; tests run few of them and a missing or extra release rarely shows.", "anchors": ["src/zope/security/_proxy.c:128-843", "src/zope/security/_zope_security_checker.c:55-555"]}
{"id": "C58", "title": "Memory safety of the C extensions", "statement": "Whatever the called code does, no function of the extension modules dereferences NULL, uses an object that may have been destroyed, or releases a reference it does not own, except: NULL after a name could not be encoded in UTF-8, or for `del checker[x]`; and a permission that was removed from its dictionary while the interaction was asked about it.", "quantifier": "every function, arguments, state, and every behaviour of the code called", "why_tests_cant": "A dangling pointer may go unnoticed, and adversarial behaviour of called code has no bound.", "anchors": ["src/zope/security/_proxy.c:128-843", "src/zope/security/_zope_security_checker.c:55-555"]}
{"id": "C59", "title": "The error indicator tells the truth", "statement": "Functions of the extension modules return NULL (or a negative number) exactly when the error indicator is set, so that no refusal is swallowed and no success is reported as failure; except that PyIter_Next may return NULL at the end of an iterator, and that selectChecker mistakes an exception of isinstance(object, Exception) for true and returns None with the error set.", "quantifier": "every function, arguments, state, and every behaviour of the code called", "why_tests_cant": "All combinations of failures of the called code.", "anchors": ["src/zope/security/_proxy.c:128-843", "src/zope/security/_zope_security_checker.c:55-555"]}
{"id": "C60", "title": "Noninterference: what is refused cannot be told", "statement": "A program that uses proxies, choosing each step by all it has seen, sees the same (results and exceptions) and leaves the same state in two worlds that differ only in operations the checkers refuse it and that are not among the few questions the package asks by itself (an object's own checker, __iter__, class and module names for the default text, policies, factories, foreign checkers). In particular attributes and special methods that are hidden (not declared at all, or declared only with non-public permissions while the interaction grants nothing) can be replaced by anything without the program noticing, for both implementations, with the exception of the listed open names.", "quantifier": "every pair of worlds, program, number of steps, state", "why_tests_cant": "Relates two executions for every adaptive program and every pair of worlds; a covert channel is absent from every finite set of runs one thinks of.", "anchors": ["src/zope/security/_proxy.c:128-843", "src/zope/security/proxy.py:53-386", "src/zope/security/checker.py:99-216"]}
{"id": "C61", "title": "The sandbox simulation: population and prison", "statement": "Whatever agents do with their homes (sending themselves or others, settling homeless agents), each agent stays listed in exactly the sandbox it lives in, provided ids are distinct; a move that fails changes nothing, and moves succeed exactly under stated conditions. With the shipped permission tables and security wired, an agent in jail stays there forever unless sent by a norse legend, and nobody gets to valhalla except when sent by one. What agents can find out by their actions is exactly characterised; in jail others than norse legends cannot even get the time, although the table grants it.", "quantifier": "every sequence of moves, population, and state", "why_tests_cant": "Holds for unbounded sequences of moves by any number of agents.", "anchors": ["src/zope/security/examples/sandbox.py:88-325", "src/zope/security/examples/sandbox_security.py:34-200"]}
{"id": "C62", "title": "The turns of the sandbox simulation on Python 3", "statement": "As shipped, on Python 3, a turn in which no agent wants to move changes nothing, and any other turn ends with UnboundLocalError; nobody ever moves. The wired simulation leaves the interaction behind, and every later turn fails at once. Even with a GreenerPastures that works, at most one agent moves in a turn, which then ends with RuntimeError.", "quantifier": "every state, every random choice, every GreenerPastures that only chooses", "why_tests_cant": "The examples are not executed by the test suite; the claim ranges over all populations and all random choices.", "anchors": ["src/zope/security/examples/sandbox.py:234-295", "src/zope/security/examples/sandbox_security.py:181-200"]}
{"id": "C63", "title": "The C code computes what the models of checkers and proxies say", "statement": "Consider any run of a function of the two extension modules in which every call of other code is answered as that code answers in the model (application objects, dictionaries, the interaction, other checkers). Then the function returns exactly the value that the corresponding operation of the proxy or checker model returns, or fails with exactly its exception, and leaves the same state behind. This covers the slots of the C proxy type, check, check_setattr, permission_id, setattr_permission_id, proxy, selectChecker, getChecker and removeSecurityProxy.", "quantifier": "every environment, interpretation of objects, memory, state, proxy, checker, name and argument", "why_tests_cant": "It relates two descriptions of the code for all behaviours of everything they call; tests run single inputs of one of them.", "anchors": ["src/zope/security/_proxy.c:128-808", "src/zope/security/_zope_security_checker.c:60-555"]}
{"id": "C64", "title": "Complete mediation in the C code, whatever other code answers", "statement": "In any run of a checked function of the C proxy type that ends without a fault, whatever the code called answers, at most one operation is carried out for the user. It is the requested one, on the wrapped object with the requested arguments. The calls right before it are exactly those by which the proxy's checker grants the documented name on the wrapped object: the permission found is CheckerPublic, or the interaction answered for it with something true, or the name is undeclared but available by default (or __iter__ on an object without it), or the checker's own slot or method did not raise. str and repr carry out nothing after a refusal. Comparison, hash, truth and length hint carry out just their operation. Operators without a proxy among the operands, the constructor, and the functions of checkers carry out nothing.", "quantifier": "every environment (all answers of all other code), memory, proxy, name and argument", "why_tests_cant": "All sequences of answers of the called code, including exceptions and odd ones, for every slot.", "anchors": ["src/zope/security/_proxy.c:128-808", "src/zope/security/_zope_security_checker.c:60-313"]}
{"id": "C65", "title": "The C code hands out only what the checker makes of a result", "statement": "In any run of a checked function of the C proxy type that ends without a fault, whatever the code called answers, the object returned is NULL or what the proxy's checker makes of the result of the operation: what the proxy method or slot of a foreign checker returned; for a native checker the result itself if it is a proxy already, a new proxy with the checker the result brings along or with the checker reached from what is registered for its type, or the bare result if NoProxy is registered, a factory declined, or it passes for an exception with nothing registered. In-place operations that give back the wrapped object return the proxy; str and repr, and comparisons giving True or False, return the plain result. If the check fails NULL is returned (for str and repr, the substitute text).", "quantifier": "every environment in which None is not a checker, memory, proxy and argument", "why_tests_cant": "All sequences of answers of the called code, and chains of factories of any length.", "anchors": ["src/zope/security/_proxy.c:160-244", "src/zope/security/_zope_security_checker.c:261-313", "src/zope/security/_zope_security_checker.c:500-555"]}
{"id": "C66", "title": "From the configuration file to the operation", "statement": "The package is imported, a configuration of directives is carried out without error, and an application that relies on it (its code changes no declarations, its objects bring no checkers of their own, the proxies it returns are the registry's) hands compiled proxies made by the registry to untrusted code. Whatever that code then does with them, and whatever else happens except changes of the declarations, every operation carried out for it is an unchecked one, or what it asked for under a name that the directives, taken in order on top of what the package declares, make public, or require a permission for that the interaction grants on that object at that moment, or leave undeclared and the package makes available by default (or __iter__ on an object without it). The last directive with anything to say about a name decides. On a class the package does not know, a name without directive can at most be read, and only if it is available by default. Conversely what is permitted is carried out. For pure-Python proxies this is false: an in-place operation leaves its result under the checker of the old object.", "quantifier": "every configuration that raises no error and does not touch shared checkers, every world that relies on it, every session of any length, every proxy held and operation on it", "why_tests_cant": "All configurations, application objects, policies, and sequences of operations of untrusted code mixed with other activity.", "anchors": ["src/zope/security/metaconfigure.py:38-231", "src/zope/security/protectclass.py:24-91", "src/zope/security/_zope_security_checker.c:60-555", "src/zope/security/_proxy.c:128-808"]}
{"id": "C67", "title": "Garbage collection of proxies and checkers", "statement": "With the tp_traverse, tp_clear and tp_dealloc the C types have: whatever objects, proxies and checkers are made, linked and given up, and whenever the cyclic collector runs among whichever objects, reference counts equal the numbers of references, and an object exists exactly as long as somebody has a reference to it (or one has been forgotten). A collection leaves every reachable object unchanged and frees every examined object that cannot be reached, although the proxy type has no tp_clear; this uses that a proxy only refers to objects older than itself, and fails if zope.proxy.setProxiedObject points a proxy at itself. Calling __init__ of a checker a second time makes its old dictionaries immortal. gc.get_referrers never finds a checker, because Checker_traverse overlooks positive answers, while it finds proxies by both references.", "quantifier": "every history of operations and collections of any length, every set of objects examined", "why_tests_cant": "All object graphs and all interleavings of collections with programs; leaks and premature frees depend on cycles of any shape and length.", "anchors": ["src/zope/security/_proxy.c:262-322", "src/zope/security/_proxy.c:772-808", "src/zope/security/_zope_security_checker.c:337-382", "src/zope/security/_zope_security_checker.c:443-463"]}
{"id": "C68", "title": "Whole configurations: included files, redefinitions, conflicts, overrides", "statement": "A configuration with included files and nested groups: if something cannot be read (an invalid permission id, a directive that says nothing or has no permission, an element closed that was not opened) the first such thing's exception comes out and nothing is carried out. If what reading or writing a name of a class requires, which permission has an id, or the policy is determined by two directives neither of whose files includes the other's, or twice in one place, nothing is carried out. Otherwise everything is carried out, with these effects: what the outermost file declares holds, wherever in it the other files are included; a permission id stands for what the redefinitions in force at that point make of it, where a redefinition is in force to the end of the group in which it stands - or, if one was in force there already, to the end of that one's group; like_class takes effect in the order of reading; nothing else changes. Afterwards, and only then, an undefined permission among those mentioned raises ValueError. What untrusted code can do with compiled proxies is what these declarations permit. The configuration that comes with the package defines six permissions and makes id, title and description of permissions public, and nothing else.", "quantifier": "every sequence of events of any length and nesting, every initial state, every later session of untrusted code", "why_tests_cant": "The interplay of include paths, conflict resolution, scoping of redefinitions and order of actions over all trees of files; tests have a handful of small files.", "anchors": ["src/zope/security/zcml.py:31-126", "src/zope/security/metaconfigure.py:59-228", "src/zope/security/configure.zcml:1-24", "src/zope/security/permissions.zcml:1-42", "src/zope/security/permission.py:45-53"]}
{"id": "C69", "title": "With which other objects the wrapped object is brought together", "statement": "Whatever is carried out for the user of a proxy brings two objects together (so that a special method of one may get the other as its argument) only if one of them was given by the user and the acting proxy's checker granted the name of the operation, or if the operation is a rich comparison, about which nobody is asked: then the two are the wrapped object and the object compared with. No other unchecked operation (hash, truth value, length hint, attribute lookup) involves a second object. A comparison is carried out on the unwrapped object, before anything is asked, whatever the checker; so an object of a class that untrusted code can define receives the wrapped object itself in its reflected method, even from a proxy that permits nothing.", "quantifier": "every proxy, operation, checker (also combined or foreign), world and state, both implementations", "why_tests_cant": "That no operation hands the object to a foreign method without a check is a claim over all operations, checkers and behaviours of other objects.", "anchors": ["src/zope/security/_proxy.c:325-334", "src/zope/security/_proxy.c:395-650", "src/zope/security/proxy.py:129-240"]}
{"id": "C70", "title": "Pickling: CheckerPublic by name, proxied objects never by content", "statement": "CheckerPublic is pickled as a reference to zope.security.checker.CheckerPublic and read again as the very same object, in both implementations and every interaction, as long as its own declarations, those of methods and strings, and the default names are as imported. A proxy under one of the package's checkers is pickled by name, and then what is found under that name is the proxy itself, or not at all, whatever its checker grants, provided methods and tuples are protected as they are by default: the tuple that describes an object arrives in a proxy, which the pickler does not accept. A proxy that declares neither __reduce_ex__ nor __reduce__ is refused without anything happening; an Unauthorized for either comes out; with any checker granting neither name nothing is carried out on the object.", "quantifier": "every proxy, checker, world, pickler and state, both implementations", "why_tests_cant": "One test pickles CheckerPublic once in the initial state; that no proxy of any kind leaks its contents into a pickle is a claim over all objects' reduce methods, checkers and registries.", "anchors": ["src/zope/security/checker.py:325-364", "src/zope/security/proxy.py:106-134", "src/zope/security/_proxy.c:362-373"]}
{"id": "C71", "title": "Checks while other threads change declarations", "statement": "Let every access to shared data made by Checker.check, check_setattr and their CombinedChecker versions see a state of its own. If all states seen lie between an earlier one and a later, more permissive one, the outcome is exactly the outcome of the check in the earlier state or the check is granted, and it is granted only if it would be in the later state. Whatever happens meanwhile, access is granted only for a reason that held in consecutive accesses to one of the dictionaries: public, a permission then granted, or for reads an undeclared default name or missing __iter__. A name one of the checkers declares public throughout is granted whatever else changes, if the policy answers yes or no. Combined checks are not atomic: a declaration moved from the second checker to the first during the check is missed. Undisturbed, all this is the check of the rest of the model.", "quantifier": "all implementations, reads and writes, chains of checkers, objects, names and sequences of states seen by the accesses", "why_tests_cant": "The interleavings of a check with other threads' declarations are unbounded and not reproducible in a test.", "anchors": ["src/zope/security/checker.py:241-278", "src/zope/security/checker.py:563-588", "src/zope/security/_zope_security_checker.c:139-198", "src/zope/security/_zope_security_checker.c:219-254"]}
{"id": "C72", "title": "From the configuration file to the operation, with pure-Python proxies", "statement": "As C66, for the proxies and checkers of the pure-Python implementation. Whatever untrusted code does with proxies made by the registry, except in-place operators, assigning _wrapped and _checker, and reading these two from a frame whose self is the proxy, and whatever else happens except changes of the declarations and assignments to these slots, every operation carried out for it is an unchecked one, or what it asked for under a name that the directives of the configuration make public, or require a permission for that the interaction grants on that object at that moment, or leave undeclared and the package makes available by default (or __iter__ where looking it up raises an AttributeError). Conversely what is permitted is carried out, conversions to strings included. What is permitted is the same as with compiled proxies, unless a permission of None is declared, which the pure-Python checker ignores, or looking up __iter__ raises something else than an AttributeError. Each of the exceptions is needed.", "quantifier": "every configuration that raises no error and does not touch shared checkers, every world that relies on it, every session of any length, every proxy held and operation on it", "why_tests_cant": "All configurations, application objects, policies, and sequences of operations of untrusted code mixed with other activity.", "anchors": ["src/zope/security/metaconfigure.py:38-231", "src/zope/security/protectclass.py:24-91", "src/zope/security/checker.py:241-290", "src/zope/security/proxy.py:27-336"]}
{"id": "C73", "title": "Importing the package leaves modules that fit together, whatever fails", "statement": "Modules of the package are imported in any order, any number of times, with exceptions striking at any statement of their module-level code and of the initialisation of the two C modules, and the program going on after each. Then: a module left in sys.modules has run to its end, and stays with the same objects; an import that raises nothing leaves its module there. checker's registry, default checker, NoProxy, the names available by default, selectChecker, _getChecker, the bases of CombinedChecker and of the logging checkers and the entry for proxies are all the C module's or all Python's, as _c_available says, and likewise the four names of proxy; with PURE_PYTHON they are Python's. The class Checker is the chosen implementation's, or its logging subclass under ZOPE_WATCH_CHECKERS. Once a C module is in sys.modules, no static variable its functions read is NULL, and each one that names a method or operator holds that name. With the C checkers in use the C code's static variables are the very objects the Python code uses. Objects that modules compare by identity (CheckerPublic, the public permission's identifier, thread_local, system_user, the exceptions, the default policy) are one object in all modules. The C code's CheckerPublic is the proxied one of some execution of checker.py, and the one the Python code uses if checker.py was executed once; after an import that failed late and was repeated it is not. If nothing fails every import of an available module succeeds, no module is executed twice, and the C implementations are used exactly if they were compiled and PURE_PYTHON is not set.", "quantifier": "every environment (PURE_PYTHON, ZOPE_WATCH_CHECKERS, which C modules were compiled, which statement raises what), every sequence of imports", "why_tests_cant": "A test process imports the package once, successfully, in one order; the failures in the middle of circular imports, and repetitions after them, are not exercised.", "anchors": ["src/zope/security/__init__.py:19-23", "src/zope/security/checker.py:60-1089", "src/zope/security/proxy.py:19-390", "src/zope/security/_zope_security_checker.c:567-673", "src/zope/security/_proxy.c:851-955", "src/zope/security/management.py:21-173"]}
{"id": "C74", "title": "The finished types have the right function in every slot", "statement": "CPython reads the static tables of the C types by position, fills what is NULL from the base type (PyType_Ready) and calls the function it finds in the slot of an operation. Whatever functions the base type has: for every operation on a proxy that the package defines (attribute access, calls, items by key and index, iteration, len, in, hash, bool, str, repr, comparisons, unary, binary and in-place operators, both sides of binary ones and all three of pow) the slot holds a function of _proxy.c, and calling it does what the model of the proxy says the operation does. Whatever the arguments and whatever other code does, a function found in a slot carries out nothing for the user before the checker of the right proxy granted the right name, except that comparison, hash and bool ask nobody. The functions proxies take from the base are those in 17 listed slots, nb_index, matrix multiplication, asynchronous protocols and buffers among them. Checker's method table, attributes and two mapping slots do what the names say; the rest is object's. All functions in the tables handle references, memory and exceptions as C57-C59 say. The class statement of ProxyPy with its three loops makes a class in which each listed special method is checked under its own name, in-place operators are the in-place ones, and nothing listed comes from the base; it can be built just when the base has the methods. Of these methods, __index__ alone is left to the base in C.", "quantifier": "every base type and base class, every slot, every operation and operands, every answer of other code", "why_tests_cant": "A table filled by position is right or wrong for all operands, operators and base types; tests try some operators with one version of zope.proxy and cannot say that nothing else is inherited unchecked.", "anchors": ["src/zope/security/_proxy.c:500-580", "src/zope/security/_proxy.c:682-808", "src/zope/security/_proxy.c:943-946", "src/zope/security/_zope_security_checker.c:318-336", "src/zope/security/_zope_security_checker.c:411-481", "src/zope/security/proxy.py:66-336"]}
{"id": "C75", "title": "What the compiled functions carry out is what the configuration permits", "statement": "The package is imported with its C modules, a configuration without conflicts is carried out, and an application whose own code changes no declarations hands out proxies made by the registry. Untrusted code works with compiled proxies: for each operation the interpreter takes the function from the slot of the finished type, whatever the base type offers in other slots, and runs it; other code answers its calls as the surroundings do. After any number of such operations, every call that a C function makes on behalf of the user is the operation meant, on the object wrapped by the proxy acting in it, and is declared public, or declared with a permission that the interaction grants on that object, or available by default, or an undeclared __iter__ of an object without one, or one of the unchecked operations (comparison, hash, bool, __length_hint__). Conversely, if the directives and the interaction permit the operation, the function, if it runs through, makes that call. All proxies untrusted code comes to hold are guarded by the registry's checker for the type of the object.", "quantifier": "every configuration without raising directives, every base type, every representation of objects by pointers, every session of operations on compiled proxies, every operation and operands", "why_tests_cant": "Tests of the configuration use the checkers, tests of the C code use hand-made checkers; that the two together never do more or less than the configuration says, for all configurations, operations and answers of other code, is the composition.", "anchors": ["src/zope/security/_proxy.c:96-838", "src/zope/security/_zope_security_checker.c:85-420", "src/zope/security/metaconfigure.py:38-330", "src/zope/security/checker.py:325-760"]}
{"id": "C76", "title": "The source of checker.py is the model of it", "statement": "Run by an interpreter, the text of checker.py does what the model says, for all arguments, in all states, with whatever the application does when called: CheckerPy.permission_id, setattr_permission_id, check (and check_getattr), check_setattr and proxy, CombinedChecker.check and check_setattr, ProxyFactory with and without a checker, canAccess, canWrite, selectCheckerPy, getCheckerForInstancesOf, moduleChecker, _instanceChecker (for an object whose class can have a checker), the methods of _Sequence, defineChecker and undefineChecker make the same calls in the same order, return the same value or raise the same exception, and leave the same state as the functions that all other claims are about.", "quantifier": "every argument of the function, every state of the package and of the application, every behaviour of application code", "why_tests_cant": "A model can agree with the code on every case somebody thought of. Equality of all runs of the syntax tree with the model leaves no transcription error in these functions.", "anchors": ["src/zope/security/checker.py:106-294", "src/zope/security/checker.py:431-500", "src/zope/security/checker.py:532-588", "src/zope/security/checker.py:705-711", "src/zope/security/checker.py:821-826"]}
{"id": "C77", "title": "The source of management.py and simplepolicies.py is the model of it", "statement": "The same for getSecurityPolicy, setSecurityPolicy, queryInteraction, getInteraction, newInteraction, endInteraction, restoreInteraction, checkPermission and _clear of management.py, and for __init__, add, remove and checkPermission of ParanoidSecurityPolicy and checkPermission of PermissiveSecurityPolicy: run by the interpreter, their text makes the same calls, gives the same results and exceptions and leaves the same state as the model, for all participations, interactions, permissions and objects.", "quantifier": "every argument, every list of participations, every state", "why_tests_cant": "As for C76: agreement on all runs, not on the tested ones.", "anchors": ["src/zope/security/management.py:56-170", "src/zope/security/simplepolicies.py:32-79"]}
{"id": "C78", "title": "What the source of proxy.py carries out is what the configuration permits", "statement": "The module-level loops of proxy.py, run by the interpreter, leave a class in which every listed method is a checking wrapper made for its own name, and the rest are those of the class body. An operation on a proxy, as the runtime looks up the method in that class and runs its text, is the operation of the model: same calls, results, exceptions and state, for attribute access from any frame, assignment, deletion, all unary, binary, reflected, in-place and power operators, items, calls, iteration, length, comparison, hash, truth value, length hint and conversion to text; for `in` up to the value. Hence, if untrusted code works with proxies that the registry made, with every operation run on the source, then every operation carried out on an application object is one of the unchecked ones or what was asked for, under a name the configuration makes public, requires a permission for that the interaction granted on that object, or leaves alone and the package makes available by default; and what is permitted is carried out.", "quantifier": "every operation with all operands, every calling frame, every state, every configuration without raising directives, every session of untrusted code", "why_tests_cant": "Unbounded sessions, arbitrary configurations and application code, and the text of the source itself rather than a description of it.", "anchors": ["src/zope/security/proxy.py:30-336", "src/zope/security/checker.py:199-294", "src/zope/security/metaconfigure.py:38-231"]}
{"id": "C79", "title": "The source of the declarations does to the registry what the model says", "statement": "`protectName`, `protectSetAttribute`, `protectLikeUnto` and `protectModule`, run from their text, do to the checker registry, the heap and the permission dictionaries what the model's functions do, with the exceptions they raise: a missing checker is made and registered, an existing one has its dictionary written, the public permission's id is translated, and the copying loops go over both dictionaries. So do the methods of `_BasicTypes` and `_clear`. `NamesChecker`, `InterfaceChecker` and `MultiChecker` give a checker with just the declared permissions, or raise for the contradiction the model raises for, leaving no trace but an unreferenced dictionary; a keyword argument named like a parameter is a TypeError. The constructors of `Checker` and `CombinedChecker` keep the dictionaries they are given (the combined checker shares those of its first), make an empty one for a missing second argument, and raise TypeError for anything that is not a dictionary.", "quantifier": "every class or module, name, permission, list of names, interface, keyword arguments, list of specifications, and every state", "why_tests_cant": "Arbitrary states of the registry and of the heap, unbounded lists of names and specifications, and the text of the source itself rather than a description of it.", "anchors": ["src/zope/security/protectclass.py:23-91", "src/zope/security/metaconfigure.py:180-197", "src/zope/security/checker.py:366-428", "src/zope/security/checker.py:751-771", "src/zope/security/checker.py:1076-1079", "src/zope/security/checker.py:208-230", "src/zope/security/checker.py:555-561"]}
{"id": "C80", "title": "The source of the directives configures what the model configures", "statement": "The methods of `ClassDirective` and the functions `require` and `allow` for modules, run from their text, emit the actions the model emits, in order, with the same discriminators, functions and arguments, and raise what the model raises. Carrying out an emitted action by running the text of the function it names does what the model's action does. So reading a whole configuration and carrying it out, all from source, has the effect on the registry and the exception of the model's configuring; with the proxies and checkers run from source too, what is done to application objects after configuration is just what the configuration and the interaction permit. Two emitted discriminators are equal just when the model's are.", "quantifier": "every list of directives, names of classes and interfaces, ways of writing the arguments (lists, tuples, left out), initial state, interaction, and session of a user", "why_tests_cant": "Unbounded configurations and sessions; the chain from the text of a directive to the text of a proxy's method goes through five files.", "anchors": ["src/zope/security/metaconfigure.py:38-164", "src/zope/security/metaconfigure.py:180-231", "src/zope/security/protectclass.py:23-91", "src/zope/security/checker.py:126-160", "src/zope/security/proxy.py:60-340"]}
{"id": "C81", "title": "Whole configurations, from source: permissions, redefinitions, nesting and conflicts", "statement": "`Permission` (the schema field) and the directives `permission`, `redefinePermission` and `securityPolicy` of zcml.py, and `checkPermission`, `allPermissions`, the two vocabularies and the constructor of permission.py, run from their text, do what the model says: the id written is stripped, checked at the end of the configuration unless public, and replaced by what the innermost enclosing context that has redefinitions says; a redefinition changes that mapping, or starts one. Loading a whole configuration - nested and included files, permissions as text, redefinitions, directives of metaconfigure.py, conflicts resolved by include path, actions carried out by the text of the functions they name - leaves the site as the model's loading leaves it and raises the same exception. In particular the configuration that comes with the package defines exactly its permissions and makes just the three attributes of IPermission public.", "quantifier": "every sequence of entering and leaving of contexts and directives, ways of writing arguments, titles and descriptions, id field, site and state; every registry of permissions and every context for the functions of permission.py", "why_tests_cant": "Unbounded nesting and configurations; what a redefinition affects depends on all enclosing contexts, and conflicts depend on the include paths of all actions.", "anchors": ["src/zope/security/zcml.py:31-126", "src/zope/security/permission.py:25-107", "src/zope/security/metaconfigure.py:38-231", "src/zope/security/permissions.zcml:1-42", "src/zope/security/configure.zcml:1-24"]}
{"id": "C82", "title": "The tables of checkers that importing the package leaves, from source", "statement": "The statements of checker.py itself, run as the module is imported (filling `_checkers`, `_default_checkers`, `BasicTypes`, `_available_by_default`, making `CheckerPublic`, `_defaultChecker` and the checkers of the basic types, taking over the C module's objects, `ZOPE_WATCH_CHECKERS`, the fix-ups for ordered dictionaries, BTrees, zope.interface and itertools, `_clear()`), end without an exception in every environment and leave for every type what the model starts from: the same types are registered, unproxied or with a checker that makes the same names public and lets nothing be written; types share a checker just if they do in the model. The views and iterators of BTrees are registered just if BTrees is installed, as iterators; the class of `pytz.UTC` just if pytz is. `CheckerPublic` is a proxy that lets only `__reduce__` and `__module__` be read, `_defaultChecker` grants nothing, and the factory registered for modules returns the module's checker or the one for `__name__`.", "quantifier": "every type; PURE_PYTHON set or not, the C module importable or not, every kind of ZOPE_WATCH_CHECKERS, with and without pytz, BTrees and zope.testing; every content of the interfaces of zope.interface", "why_tests_cant": "Tests look at a few types in one environment; here every type in every environment, with the interfaces of another package left open, and the text of the source itself rather than a description of it.", "anchors": ["src/zope/security/checker.py:97-103", "src/zope/security/checker.py:346-358", "src/zope/security/checker.py:493-530", "src/zope/security/checker.py:671-748", "src/zope/security/checker.py:774-1089"]}
{"id": "C83", "title": "The source of adapters, decorators and testing does what the model says", "statement": "`assertLocation`, the methods of the three adapter factories with their constructors, `DecoratedSecurityCheckerDescriptor.__get__` and `__set__`, and `Principal`, `Participation`, `create_interaction`, `interaction` and `addCheckerPublic` of testing.py, run from their text, give the results, effects and exceptions of the model. So, from source: a trusted factory called with a proxied object among its arguments calls the adapted factory with one proxy removed from each of them and returns the adapter protected, never raw; called with unproxied objects it returns the adapter as it is; the non-locating one differs in not location-proxying; an untrusted one hands its arguments on. A decorator's checker is the combination of its class's and its object's. The body of `with interaction(...)` runs in an interaction which is ended however the body ends. After `addCheckerPublic` the public permission counts as defined, and every other as before.", "quantifier": "every factory, every list of arguments, proxied or not, every state, both implementations of proxies; every body of the with statement", "why_tests_cant": "Tests call the factories with one or two arguments and fixed checkers; here every argument list, every adapter and every way the factory, the location and the protecting may fail, on the text of the functions itself.", "anchors": ["src/zope/security/adapter.py:24-136", "src/zope/security/decorator.py:30-58", "src/zope/security/testing.py:35-104"]}
{"id": "C84", "title": "The source of watching checkers does what the model says", "statement": "`_log`, `check`, `check_getattr` and `check_setattr` of `CheckerLoggingMixin`, and `CombinedChecker.check` and `check_setattr` over watching checkers, run from the syntax trees of the source, decide, act and write to the file exactly as the model says: the same outcome and state and the same lines in the same order, in the exact wording of the source, after those already in the file. Over the pure Python `Checker` everything is run from source. If `repr` of the object does no harm no decision or effect is changed by watching, and the lines written are those required by the outcome and the verbosity.", "quantifier": "all worlds, states, contents of the file, base classes, verbosities, kinds of check, objects (with any `repr`), names, and all nestings of combined checkers with any mix of watching and plain ones", "why_tests_cant": "The tests check a few messages for two verbosities with a well-behaved object; the claim covers every exception out of the check or `repr`, every verbosity and arbitrary nesting.", "anchors": ["src/zope/security/checker.py:591-669", "src/zope/security/checker.py:556-588", "src/zope/security/checker.py:692-702"]}
{"id": "C85", "title": "The source of the remaining functions: making proxies, isinstance, Global, tracebacks, the factory directive", "statement": "`ProxyPy.__new__` followed by `__init__`, with every assignment to the instance through `ProxyPy.__setattr__`, makes exactly the proxy of the model or raises ValueError for the checker None. `zope.security.proxy.isinstance` looks through a proxy and nothing else. `getTestProxyItems` gives the items of the read dictionary of the proxy's checker, all and only, sorted by name, and TypeError for what is no proxy. A `Global` has the name given and the module given or, without one, the module it is made in, and is pickled as that name. `TracebackSupplement.getInfo` never raises, whatever the object does. The directive `factory` requests one registration of a public factory for the class, under the id or else the dotted name of the class.", "quantifier": "all worlds, states, values, checkers, names and modules; for `getInfo` all interpretations of every operation", "why_tests_cant": "The tests construct a few proxies and one supplement with well-behaved objects; the claim about tracebacks is about every possible failure in every order.", "anchors": ["src/zope/security/proxy.py:82-92", "src/zope/security/proxy.py:372-386", "src/zope/security/checker.py:297-345", "src/zope/security/metaconfigure.py:163-177"]}
{"id": "C86", "title": "From the elements of a ZCML file to what is configured", "statement": "A ZCML file, gone through element by element with the directives of meta.zcml, the schemas of metadirectives.py and zcml.py and the source of the handlers, configures exactly what the file says: the result, the declarations, the permissions and the exceptions are those of the events it means, for any nesting of configure, include, class and module. A file that contains anywhere an unknown directive, an attribute that no field has, or lacks a required one, is refused and changes nothing. For every directive and subdirective, if the schema accepts the attributes, the handler can be called with the arguments. Loading the package's own configure.zcml and permissions.zcml as they are written defines exactly the six permissions and makes exactly id, title and description of permissions readable.", "quantifier": "all documents, attributes, field conversions, namings, sites and starting states", "why_tests_cant": "The tests load a handful of hand-written files; that no document whatever is half-loaded, and that schemas and handlers fit together for every combination of attributes, is about all of them.", "anchors": ["src/zope/security/meta.zcml:1-73", "src/zope/security/metadirectives.py:32-203", "src/zope/security/zcml.py:25-126", "src/zope/security/metaconfigure.py:40-231", "src/zope/security/configure.zcml:1-24", "src/zope/security/permissions.zcml:1-42"]}
{"id": "C87", "title": "The C source does what the model of it does", "statement": "Every function of _proxy.c and _zope_security_checker.c that is reachable through the slots, methods and module functions, parsed from the C text with the files' own macros expanded and run on the machine with references, NULL and the error indicator, makes the same calls, with the same results, the same changes of reference counts and the same faults, as the model's function of C57-C75. The static tables of the types, read from the text, put exactly these functions into exactly these slots. Hence the source itself is balanced, memory safe and truthful about errors, every slot asks the checker for the right name before it acts and protects the result, and after any configuration and any session of untrusted code through the compiled slots, only operations that the declarations permit are carried out, and those are.", "quantifier": "all objects, arguments, memories, answers of the C API and of Python code, call depths from 6, loop bounds, configurations and sessions", "why_tests_cant": "A test runs a compiled binary on a few objects and cannot see a leaked reference, a use after free on a rare error path or a slot filled with the wrong function of the same shape; these are statements about all paths of every function.", "anchors": ["src/zope/security/_proxy.c:1-953", "src/zope/security/_zope_security_checker.c:1-673"]}
{"id": "C88", "title": "Initialisation and collector functions of the C source", "statement": "PyInit__proxy and PyInit__zope_security_checker, parsed from the C text, never use, give back or pass on a reference they do not own, whichever of their calls fail; after the first failing call (of PyModule_AddObject apart) nothing more is called and NULL is returned, otherwise the module is; what was done is a beginning of what C73 says the module's body does, and all of it if a module is returned: each static string, object, import and imported name, the types made ready once, after their slots and base were set; without a failure every reference is held by a static variable, by the module, or is the result, and the module has exactly the names of C73. The collector's functions of both types, from the text, visit, clear and release what the model of C67 says: traverse visits both fields, dealloc untracks the object first, then releases every field once and frees the memory once.", "quantifier": "all patterns of failing calls; all visiting functions with state, all contents of the fields", "why_tests_cant": "Failures of allocation and import inside module initialisation and the collector's visits cannot be provoked systematically by tests, and a missing or doubled release shows only as corruption later.", "anchors": ["src/zope/security/_proxy.c:300-322", "src/zope/security/_proxy.c:851-953", "src/zope/security/_zope_security_checker.c:337-362", "src/zope/security/_zope_security_checker.c:567-673"]}
{"id": "C89", "title": "The module-level code of the import model is that of the source", "statement": "For every Python module of the package and both settings of PURE_PYTHON and ZOPE_WATCH_CHECKERS, the sequence of module-level statements on which C73 rests (imports from the package with their names, definitions, assignments, deletions, the conditions and try statements around them, and the global names each reads when it is executed, including those read by module functions called there) is exactly that of the text. Whatever one module imports from another by name is a name the other's text binds, or the C module exports. The exceptions that are caught around the imports of the C modules, and of optional packages, are those the handlers name.", "quantifier": "all modules, settings, statements and exceptions", "why_tests_cant": "Import order and circular imports are tested only in the order and environment the tests happen to import; the theorems of C73 about all orders and failures are only as good as the transcription of the modules' bodies, which this ties to the text.", "anchors": ["src/zope/security/__init__.py:19-23", "src/zope/security/checker.py:60-1089", "src/zope/security/proxy.py:19-390", "src/zope/security/_compat.py:16-46", "src/zope/security/interfaces.py:1-500"]}
{"id": "C90", "title": "Declared interfaces are kept", "statement": "Whoever declares an interface of this package (a class with implementer or classImplements, and its subclasses; an object with provider or directlyProvides; a module with moduleProvides), with the C extension and without, has every method and attribute of the interface, inherited ones included, and each method accepts every call by position which the interface's signature accepts. By the interface's parameter names it accepts all calls exactly for a listed set of methods; for each other method the call with all parameters by name is allowed by the interface and raises TypeError. Nothing declares ISecurityChecking.", "quantifier": "all declarations, methods, attributes and calls (any number of arguments by position, any keywords)", "why_tests_cant": "verifyObject compares signatures only for the classes that a test thinks of, does not look at parameter names, and cannot read the signatures of C methods; the set of calls is infinite.", "anchors": ["src/zope/security/interfaces.py:33-420", "src/zope/security/checker.py:136-290", "src/zope/security/checker.py:525", "src/zope/security/checker.py:575-700", "src/zope/security/simplepolicies.py:31-77", "src/zope/security/management.py:45-150", "src/zope/security/_zope_security_checker.c:318-335"]}
{"id": "C91", "title": "The source of the sandbox example does what the model says", "statement": "Run from its source text, SimulationSecurityPolicy.checkPermission gives for every database, home, company of participants and permission the decision of the model of C46. The class body of SimulationSecurityDatabase makes exactly the tables of the model; PermissionMapChecker makes a new checker whose read permissions are, for each method, that of the last entry listing it, and writes the dictionary given or a new empty one; the module's statements define the permissions and four checkers with the tables of the maps and change nothing else. wire_security sets the policy, registers the four checkers and no others, and replaces the four functions; a second call raises DuplicationError with registry and classes unchanged. Together, after import and wiring the policy grants what the shipped tables list, and the sandbox and its services are under the checkers of their maps.", "quantifier": "all databases, homes, token lists, permissions, permission maps and prior states", "why_tests_cant": "The tests of the example run a few agents in three homes; a table or loop that differs elsewhere is not seen.", "anchors": ["src/zope/security/examples/sandbox_security.py:23-75", "src/zope/security/examples/sandbox_security.py:78-130", "src/zope/security/examples/sandbox_security.py:133-200"]}
{"id": "C92", "title": "The source of the simulation does what the model says", "statement": "Run from their source text, Sandbox.addAgent, the function wire_security puts in its place, Sandbox.transportAgent, the three actions with the three services, Agent.action, setupAgent and teardownAgent before and after wiring, and both versions of GreenerPastures do, in every state and for bare and proxied sandboxes, what the model of C61 says: same result or exception and same state. In particular an agent is removed from its old home only after the new one has accepted it. Asked with getAgentIds, a sandbox lists an agent once addAgent has returned and did not before; after transportAgent has returned the destination, which is another sandbox, lists the agent and the old one does not; everyone else is listed where they were. So any sequence of moves made by the functions of the source leaves jail closed for who lives there and valhalla for who does not, unless sent by norse legends.", "quantifier": "all agents, sandboxes, references, states and sequences of moves", "why_tests_cant": "The simulation is run for a few random turns; that no sequence of moves gets around the policy needs induction over all of them.", "anchors": ["src/zope/security/examples/sandbox.py:73-170", "src/zope/security/examples/sandbox.py:185-231", "src/zope/security/examples/sandbox.py:243-247", "src/zope/security/examples/sandbox.py:290-295", "src/zope/security/examples/sandbox_security.py:169-200"]}
{"id": "C93", "title": "The source of the simulation makes the world the model starts from", "statement": "Run from source text, Agent.__init__ leaves an agent with the given id, token and action and no home; Sandbox.__init__ leaves a sandbox with the given id, no agents and one service of each class in the order given, or raises SandboxError when two classes have the same name; addService refuses a service whose id is taken and otherwise adds it at the end; the two loops of the module register each sandbox under its id and then add the agents to origin in order, stopping at the first one refused. The statements of the module from default_service_factories to its end, run from source in any state, leave the state the simulation of C61 and C92 starts from.", "quantifier": "all agents, sandboxes, ids, tokens, lists of services, lists of sandboxes and agents, and states", "why_tests_cant": "Only one world is ever made by the module; that the constructors touch nothing else and which lists are refused concerns all of them.", "anchors": ["src/zope/security/examples/sandbox.py:91-96", "src/zope/security/examples/sandbox.py:121-127", "src/zope/security/examples/sandbox.py:152-159", "src/zope/security/examples/sandbox.py:173-182", "src/zope/security/examples/sandbox.py:212-216", "src/zope/security/examples/sandbox.py:302-325"]}
{"id": "C94", "title": "A turn of the simulation without moves, from source, does nothing but ask", "statement": "Run from its source text, TimeGenerator.turn with a WanderLust that says no equals the model's turn, before and after wire_security, in every state. If no interaction is running (or the policy is not installed) it returns normally and leaves the state exactly as it was: whatever an agent is refused is caught, and its interaction is ended. If one is running and there is an agent at the first home, the turn fails with the AssertionError of newInteraction and changes nothing. So in any history of such turns and of moves, run from source after the source of the module has made the world and wire_security was called, an agent of the module whom no norse legend sends is never in valhalla and never leaves jail.", "quantifier": "all states: any homes, agents, actions, tokens", "why_tests_cant": "A run of the example sees a few agents with the given permissions; that every exception of every agent is contained and every interaction ended is about all of them.", "anchors": ["src/zope/security/examples/sandbox.py:249-281", "src/zope/security/examples/sandbox_security.py:181-189"]}
