# Design of the formal model of zope.security

Source: `/repo` (zope.security, Python plus two C extension modules).  Everything is
Lean 4, under `lean/Verif/`, built by `lake build` in `lean/`.

## 1. Trusted base

* Lean 4.33.0's kernel.  No axioms are added; each theorem depends at most on `propext`,
  `Classical.choice` and `Quot.sound`.  `AXIOMS.md` lists, for every theorem of MANIFEST.json, what
  `#print axioms` prints.  No `sorry`, `native_decide`, `bv_decide`.
* The correspondence between the Lean definitions and `/repo`: every definition cites the
  file and lines it models; it was transcribed by reading, the code was not run.  For the functions of
  C76-C85 the transcription is not trusted: `tools/pysource.py` writes the syntax trees of checker.py,
  proxy.py, management.py, simplepolicies.py, decorator.py, protectclass.py, metaconfigure.py, zcml.py, permission.py, adapter.py, testing.py and, for C91-C93, examples/sandbox.py and examples/sandbox_security.py (parsed with Python's `ast`, as text) to
  `Verif/Source/*.lean`, `Model/PyCode.lean` interprets them, and the model's functions are proved equal to
  those runs.  Trusted instead are the generator, the interpreter and the hosts `Model/PyHost.lean`,
  `Model/PyDecl.lean`, `Model/PyRead.lean`, `Model/PyZcml.lean`, `Model/PyModule.lean`, `Model/PyAdapt.lean`,
  `Model/PyWatch.lean` and `Model/PyRest.lean`.  For C86 `tools/zcmlsource.py` writes the fields of the schemas of
  metadirectives.py and zcml.py (`Source/Schemas.lean`) and the elements of meta.zcml, configure.zcml and permissions.zcml
  (`Source/Files.lean`); trusted are that generator and `Model/PyXml.lean`.
  For C87 `tools/csource.py` writes the functions, static tables, interned strings and imported names of `_proxy.c` and
  `_zope_security_checker.c` (`Source/CFiles.lean`); trusted are that generator, the syntax `Model/CSyntax.lean`, the
  interpreter `Model/CRun.lean` and the machine `Model/CMem.lean`; for C88 `Model/CPlain.lean` and `Model/CInit.lean`.
  For C89 `tools/modsource.py` writes the statements outside functions of all Python modules (`Source/Modules.lean`); trusted are that
  generator and the translation in `Spec/Top.lean`.
  For C90 the same generator writes interfaces, classes, signatures and declarations (`Source/Interfaces.lean`); trusted are that and Python's rule for binding arguments (`Sig.Accepts`).
  For C91 trusted are the meanings of names in `Model/PySandbox.lean`: the module-level variables, the variables of a class body, attributes assigned on the module `sandbox`,
  and the application's `getHome`, `getId`, `getAuthenticationToken`, `participations`.
  For C92 trusted are the meanings of names in `Model/PySimulation.lean`: attributes and dictionaries of agents and sandboxes, `providedBy`, `selectChecker`, `proxy`,
  `newInteraction`, `endInteraction`, and that a method of a proxied object is asked for first (`decideSim`).
  For C93 trusted are those of `Model/PyWorld.lean`: attributes assigned in constructors, `in` and assignment for `_services` and `_homes`, calling the classes of services, agents and sandboxes (the last two run `__init__` from source).
  For C94 trusted are those of `Model/PyTurn.lean`: `_homes.values`, iteration over a view as over a list, `print`, `except Exception`, and that `filter` gives nothing when nobody wanders.
  To check that the trees are those of `/repo`: `python3 tools/pysource.py /repo /tmp/out` (and `csource.py`) and compare.
* CPython / zope.interface / zope.proxy / zope.configuration / zope.component / zope.location are
  not modelled, except through the explicit assumptions of section 3.

## 2. Shape of the model

* `Val` — Python values: `None`, `NotImplemented`, bools, ints, strings *with identity*
  (so `is` and `==` differ), opaque application objects, types, modules, functions,
  `NoProxy`, interactions, checkers, decorator proxies, security proxies.  `is` is Lean
  equality of `Val`.
* `Exn`, `Res` — exceptions are values; a call gives `ok`, `err` or `diverge` (only
  `selectChecker`'s loop can diverge; it has fuel, all theorems hold for every fuel).
* `St` — the complete mutable state: checker registry, `BasicTypes`, a heap of permission
  dictionaries (checkers hold references, so aliasing is real), the default-available list,
  thread-local interaction slots of every thread, the global policy, interactions,
  participations, overlays for the mutable slots of pure-Python proxies, the application's
  own state, and a ghost trace of operations really carried out on objects.
* `World` — the behaviour of everything outside the package: application objects, custom
  policies, custom checkers, checker factories.  It is an arbitrary function from
  operation and state to result and state, so it may do anything (including changing the
  registry, the interaction, ...).  Theorems quantify over all worlds.
* `M` — state + exceptions monad.  State changes persist when an exception is raised.
* Each Python/C function is a Lean function, branch by branch; C and Python twins are
  separate definitions selected by `Impl`.
* Specifications (`Verif/Spec/*.lean`) are separate from the model's helpers; property
  theorems (`Verif/Props/*.lean`) are separate from helper lemmas.

## 3. Modelled / not modelled

| source | model |
|--------|-------|
| Python's data model as used here | `Model/Py.lean`, `Model/State.lean`, `Model/Run.lean` |
| `checker.py` `Checker`, `CombinedChecker`; `_zope_security_checker.c` `Checker` | `Model/Checker.lean` |
| `checker.py` `selectChecker`, `ProxyFactory`, `Checker.proxy`; their C twins; `decorator.py` | `Model/Select.lean` |
| `checker.py` registry functions, constructors, `_BasicTypes`, `_clear` | `Model/Registry.lean` |
| `checker.py` `canAccess`, `canWrite` | `Model/Access.lean` |
| `checker.py` default tables | `Model/Initial.lean` |
| `checker.py` logging checkers | `Model/Watching.lean` |
| `proxy.py`, `_proxy.c` (every special method defined there) | `Model/Proxy.lean` |
| `management.py` | `Model/Management.lean` |
| `simplepolicies.py` | `Model/Policy.lean` |
| `protectclass.py`, `metaconfigure.protectModule` | `Model/Protect.lean`, interleaved in `Model/Threads.lean` |
| `metaconfigure.py` directives | `Model/Meta.lean` |
| `zcml.py` | `Model/Zcml.lean` |
| `permission.py` | `Model/Permission.lean` |
| `adapter.py` | `Model/Adapter.lean` |
| `testing.py` | `Model/Testing.lean` |
| `examples/sandbox_security.py`, `examples/sandbox.py` | `Model/Sandbox.lean`, `Model/Simulation.lean` |
| `_proxy.c`, `_zope_security_checker.c` a second time, as C: references, NULL, error indicator | `Model/CMem.lean`, `Model/CCode.lean` |
| `checker.py` `Global`; pickling | `Model/Pickle.lean` |
| `Checker.check`, `check_setattr`, `CombinedChecker` a second time, access by access | `Model/Moment.lean` |
| zcml.py and metaconfigure.py in nested contexts and included files; configure.zcml, permissions.zcml | `Model/File.lean`, `Props/File.lean` (`shipped`) |
| `proxy_traverse`, `proxy_clear`, `proxy_dealloc`, `Checker_traverse`, `Checker_clear`, `Checker_dealloc`, the slots | `Model/Gc.lean` |
| `meta.zcml`, `configure.zcml`, `permissions.zcml`, the schemas of `metadirectives.py` and `zcml.py` | `Source/Files.lean`, `Source/Schemas.lean`, `Model/PyXml.lean` |
| the module-level code of every module, `PyInit__proxy`, `PyInit__zope_security_checker` | `Model/Import.lean` |
| the tables of slots, methods and attributes of the C types, `PyType_Ready`; the class statement of `ProxyPy` and its loops | `Model/Slots.lean` |

Not modelled / assumed:
* `zope.proxy.PyProxyBase` is outside `/repo`; its special methods are assumed to apply the
  same operation to the wrapped object, its attribute lookup is an arbitrary external
  operation (`RawOp.baseGetattr`).  Slots the C type inherits from zope.proxy and which
  `_proxy.c` does not define (for example `__index__`, `@`) are listed by C74; what the base does there
  is not modelled.
* C74: the layout of CPython's structures, `PyType_Ready`'s inheritance of slots and which slot the interpreter uses for
  which operation are CPython's, outside `/repo`.
* Interpreter-level contracts: `len()` gives a non-negative int, `in` and `bool()` a bool,
  `hash()` an int, `str()`/`repr()` a str or str-subclass instance; otherwise TypeError.
* Builtin constants (`None`, bools, ints, strings...) have no `__Security_checker__`.
* A checker that is not an instance of `Checker` is an arbitrary external object.
* Subclasses of `Proxy`, and subclasses of `Checker` other than the package's own, are not
  modelled.  Pickling byte format, documentation helpers (`_compat`) and the parsing of XML text into elements are not
  modelled.
* The pickler (C70) is CPython's: `Model/Pickle.lean` follows `save`, `save_global` and `whichmodule` of `_pickle.c` for an object of
  a type unknown to it.  What it does with the elements of a genuine tuple is not modelled, nor is the pure-Python pickler.
* `zope.configuration` is outside `/repo`.  C38-C40 take one context and actions without conflicts.  C68
  models, after its `config.py`: grouping contexts that look attributes up in the enclosing context,
  include paths, `resolveConflicts`, `execute_actions`; not: XML, conversion of the other attributes of
  directives, error wrapping (the original exception is what the model gives), `includeOverrides`,
  `exclude`, conditions.  zope.component's `utility` action is its discriminator and the registration.
* `list.remove` on participations compares by identity.
* The simulation (C61, C62): agents' tokens do not change, references to sandboxes are those handed
  out by the example (an agent's code that forges its own token is not considered), every object is
  an agent, sandbox or service as its interface says; the checks are reduced to table and policy.
* The C model: calls of other code answer arbitrarily and may remove any object from any dictionary;
  the caller keeps the arguments, and a proxy keeps its object and its checker (`Kept`), during the
  call.  Other code does not call `__init__` of the same checker during the call.  Module
  initialisation has a model of its own (C73), without references; `tp_traverse`, `tp_clear` and `tp_dealloc` have a model of their own (C67).  The machine logs every call with its arguments
  and answer and remembers which exception is set; C63 uses this to tie the C model to the other models.
* C67: the collector is CPython's, outside `/repo`, modelled after `gcmodule.c` without finalizers, weak
  references, resurrection and untracked objects; the base type's `tp_clear` and `tp_dealloc` (zope.proxy) clear the
  object and free the memory; destructors only release references.  `setProxiedObject` is excluded from histories
  (`C67_setProxied` shows why).
* C63, C64 and C65 speak of runs that end without a fault (faults are C58); C63 of runs in which memory is not exhausted and
  destructors do nothing that matters.  Keyword arguments of calls through a proxy are not represented;
  `proxy_new` is not compared (the model of `Proxy(...)` is `newProxy`, which C63 uses as the meaning of
  the call of the type).  The iterations of `selectChecker`'s loop are bounded in both models.
* C73: the import system is CPython's, outside `/repo`: `sys.modules`, the parent package first, removal of a Python module
  whose body raised, single-phase initialisation of C modules.  Modules outside the package do not import it back; one thread
  imports; submodules are not attributes of the package; names nobody else reads are left out.  "Nothing fails" in `C73_imports`
  includes that the optional packages (BTrees, pytz, zope.testing) are there; the other theorems do not assume it.

Hypotheses that occur in several theorems and what they mean:
* `OwnCheckers X` (C11, C12): application code hands out no proxies with foreign checkers, and
  `__Security_checker__` attributes are instances of the package's checkers or None.
* `Slots…` / "keeps" hypotheses for pure-Python proxies (C12-C14): application code does not
  re-assign the private slots of the proxy during the check; each has a witness that it is needed.
* `Blind W` (C22 for `__iter__`): the outside world cannot see the ghost record of operations, which
  exists only in the model.
* `Heap s`, `Apart s k` (C35-C39): the references of registered checkers are allocated; the
  dictionaries of class `k` are shared with no other class.  `C37_exact` has no `Apart`.
* `Relies W s0`, `Session` (C66): application code changes no declarations, its objects have no
  `__Security_checker__`, and the proxies it returns are those the registry makes; untrusted code uses
  values it holds and constants, anything else may happen but changes of the declarations.
* `ReliesPy W s0`, `SessionPy`, `Careful` (C72): in addition nobody assigns `_wrapped` or `_checker` of
  a proxy, uses in-place operators, or reads the two slots from within a method of a proxy
  (`C72_slots`, `C66_py` show that each matters).
* `Sessions` (C75): as `Session`, with the machine: every call the C functions make is answered as the
  surroundings of the model answer it (`Explains`), objects are pointers (`Fits`), and the permission
  dictionaries in the checkers' fields are those of the model (`Fields`, shown to be kept).
* Source runs (C76-C78): the host gives the meaning of the names, attributes, methods and operators that
  the functions use.  What it has no meaning for is `stuck`, which no theorem allows to happen.  Simplified:
  texts made with `%` are kept only where the model keeps them (`TypeError` texts are dropped); the address
  in `_fmt_address` is an oracle of the world; operations on application objects are recorded as probes of
  the package (`own`), as operations for the user (`user`) or as plain comparisons (`raw`), by which
  function is running; `sys._getframe(1)` is the calling frame given to the run.  Calls of other functions
  of the package inside a function mean the model's functions (proved equal in turn to their own sources),
  so that runs are not nested.  `ProxyPy.__new__`/`__init__` and `_fmt_address` have trees but no theorem.
* Declarations from source (C79): the keys of `_checkers` are classes and modules (`definable`); for anything
  else `defineChecker` raises, which is C76.  `==` between a permission that is not a string and a string is
  false.  In the trees a generator is a function that collects what it yields and is run to its end when it is called:
  `_names` has no effects but on its own `seen`, so that nothing can tell the difference.  Private names are
  mangled by the generator of the trees.
* Directives from source (C80): `_context` is one object, whose `action` method appends the keyword arguments it is given to
  a list; so the handler's `_ClassDirective__context` and the `_context` passed to a sub-directive emit into the same list.
  `__module__`, `__name__` and `__identifier__` of classes and interfaces are those a `Naming` gives, for all
  namings.  A permission is `None` or a string (`IsPermission`: the schema of the directive converts it).  `sorted` sorts
  names by their characters.  `object()` in a discriminator is a symbol equal to nothing (`comparable`).
  `classImplements` and `provideInterface` do nothing to the registry.  Methods of the handler call each other at most four
  deep, each call running its tree.  `Writes` relates the arguments a method is called with to the model's directive.
  `ClassDirective.factory` and `__call__` are left out.
* Whole configurations from source (C81): of zope.configuration the nesting of contexts, include paths, the resolving of conflicts
  and the carrying out in order are as in `Model/File.lean` (`sourceTokens`, `sourceResolve`, `sourceCalls`); of zope.schema,
  `Id.fromUnicode` strips and calls `_validate`.  `permission_mapping` is an attribute of a context that holds a dictionary; `getattr` and `hasattr` find
  that of the innermost enclosing context which has one, assignment gives the context one of its own.  `zope.component.zcml.utility` emits
  an action with discriminator `('utility', interface, name)` calling `handler`; the action it also emits for the interface, without
  discriminator, is left out.  Utilities are looked up by the context given, `None` standing for the site.  In the trees an `import` inside a function
  assigns the imported object to a local name, and `append`/`insert(0, …)` on a list that the function has itself made and not passed on is
  written as an assignment of a new list.  `Written` relates text to the events of `Model/File.lean`.
* Tables from source (C82): the statements of checker.py outside classes and functions are one tree, `_module`, in which unconditional imports,
  class and function statements and `del` of names are left out (classes and functions count as defined), and so are the statements of
  checker.py:91-95 (an exception class) and 805-830 (`BasicTypes_examples`, used by tests only).  An object of Python's own or of another package
  is known by its class; which class `type(iter([]))` and the like have is a fact about CPython, zope.interface and BTrees stated in
  `Model/PyModule.lean`.  `NamesChecker` and `InterfaceChecker` are the model's (proved from source in C79).  The objects of the C module were made
  when it was initialised.  The run is evaluated by the kernel (`kernel_rfl`: `Eq.refl` without a check by the elaborator first), with
  the interfaces of zope.interface, pytz and ZOPE_WATCH_CHECKERS left symbolic.
* Adapters, decorators and testing from source (C83): `self.factory` is the adapted factory and other methods of `self` are found in the tables of its
  class and base class and run from source.  `ILocation.providedBy`, `LocationProxy` and its `__parent__` are as in `Model/Adapter.lean`; reading
  `__parent__` of anything else is application code.  Functions of checker.py, proxy.py and management.py are the model's (proved from source in
  C76-C78).  In the message of the AttributeError a decorator raises, the class name of the decorated object is taken to be readable.
  The `yield` of the context manager `interaction` is a call of the body of the `with` statement, as `contextlib.contextmanager` makes it; a principal is known
  by its id.  `registerUtility` puts a permission object in front of those registered.
* Watching checkers from source (C84): a message is the list of its pieces (text, the name, and the representation of the object, which is obtained by
  running `repr` when the message is made); a message written to the file is kept with the state of the application.  Writing to the file succeeds.
  `super()` in the mixin is the base class, `Checker` in `CombinedChecker` the rebound name (checker.py:692-702).
* The remaining functions from source (C85): a proxy under construction is its attributes, and an assignment to one runs `ProxyPy.__setattr__`;
  `object.__new__` gives a blank instance, which gets its identity when it is complete.  `utility` and `Factory` of zope.component are recorded, not
  run.  Without theorem remain `_instanceChecker` (checker.py:705-706, called by nothing), the two methods of `_Sequence` (checker.py:821-826, which only
  raise NotImplementedError and exist for their iterator type), `TracebackSupplement.__init__` (one assignment) and the predicate `pred` of
  `_fixup_itertools`.
* Elements (C86): of zope.configuration are modelled, after its `config.py`, `fields.py` and `zopeconfigure`, outside `/repo`: the directives that define
  directives (the table is there from the beginning, not from where meta.zcml is included), `toargs` (fields in the order of the schema, attributes without field and
  required fields without attribute are errors), the conversion of text by the class of a field (`Fields`: splitting at white space, identifiers, dotted names and message ids
  are arbitrary functions; `*` is None for `GlobalObject` and an error for the items of `Tokens`, whose `value_type` rejects None), complex directives as an object with a method for each
  subdirective and a call at the end, and grouping contexts.  An `include` has the elements of the file it includes as children; its context and that of the file's
  root element are one, and an element `include` without children is a file that has been included or defines only directives.  Directives of other packages (`Fields.other`) emit nothing.
  `events` says what a file means, without meta.zcml, schemas and handlers; factories and classes, modules and policies given as something else are outside
  of it, but `known`, which says what can be written at all, includes them.
* The C files from source (C87): the generator expands the macros that the files define (`CHECKED`, `BINOP`, `UNOP`, ... and so all the functions they make), except
  `CLEAR`, which is one step, and drops casts.  The interpreter evaluates from left to right; a member of a structure is read by using the object; `Py_INCREF`, `Py_DECREF` and the
  calls of the C API are the machine's; NULL where an object is needed, a function or an expression it does not know, are faults, so that the theorems on memory
  safety also exclude those.  The depth of calls is bounded by a number; 6 is enough for everything and the theorems are for any larger one.  Loops are bounded by `Host.fuel`, as in the
  model.  `PyArg_ParseTuple` succeeds or not, as the machine's environment says, integers do not overflow, an interned string is its text, `Py_TYPE(o) == Proxy` is
  `Env.exactProxy`.  A type without `tp_as_mapping` has no `mp_subscript` and `mp_ass_subscript`, one without `tp_as_number` no `nb_int` and `nb_float` (`Host.Ok`).
* Module-level code from source (C89): the translation into the lines of C73 keeps every import of the package, every statement that binds a name of C73 or reads one, with the conditions
  around it.  It leaves out imports from outside the package, statements under conditions other than flags (`if os.environ.get(...)`: the value of
  `WATCH_CHECKERS` is a parameter, as is that of `PURE_PYTHON`), and what is inside functions, except that a call of a function of the same module reads the globals in its body.  The
  lines of the model for places without a name (`CheckerPublic.type`, base classes, default arguments) and for the content of the registry are not compared.
* Interfaces from source (C90): signatures and calls without keyword-only parameters and `**` (no interface has them); an attribute counts as present when the body of the class or the
  unconditional part of `__init__` assigns it; what methods do with their arguments is the matter of the other properties; declarations about interfaces of other packages are left out.
* examples/sandbox_security.py from source (C91): home id, tokens and database are any; a class of `sandbox` is known by its name; attributes every class has (`__doc__`, say) are
  a parameter (`common`); that the module is imported, not run as a script, is `__name__`.
* examples/sandbox.py from source (C92), with the functions `wire_security` puts there: agents, sandboxes, services, actions, `setupAgent`, `teardownAgent`, `GreenerPastures`.
  `providedBy` is true for agents and sandboxes; the text of exceptions is left out.  The interpreter evaluates the arguments of a method call before it looks the method up, so
  `GreenerPastures` is for agents with a home.  Not from source: `WanderLust`, `main`, `__str__`.
* The making of agents, sandboxes and services and the loops at the end of examples/sandbox.py from source (C93).  The statement
  `_homes = {}` is not run: it is a hypothesis.  An object made by calling `Sandbox` or `Agent` has a number that depends on its id (`bn`, `an`).  A service keeps no home: it is the sandbox that lists it.
* `TimeGenerator.turn` from source (C94) for turns in which `WanderLust` says no to everyone.  When it says yes, the handler uses a variable that may be unbound, where the interpreter
  stops; that part is in the model of C61 only.
* The remaining functions of the C files from source (C88): `*_clear`, `*_dealloc`, `*_traverse` and `PyInit_*` are written to `Source/CPlain.lean` in a plainer syntax (`Model/CPlain.lean`) and run by
  two interpreters of their own (`Model/CInit.lean`).  Initialisation: each call of the C API fails or not, as a function of its number says, with new references counted; what a call
  returns is a symbol (`PyDict_New` gives a new object, `PyObject_GetAttrString` the attribute of that module).  That a failing call sets the error indicator, and the
  name under which Python knows a static type (`typeName`), are not read off the text.  Collector: one object with its two fields; `tp_clear` and
  `tp_dealloc` of the base type are zope.proxy's, assumed to clear the object and, the latter, to free the memory.  What other code does during a release is not modelled here (the fields are
  unset before, `CLEAR`).
* `SourceSession` (C78): `SessionPy` with `sourceOp` in place of the model's operation; the result of `in`
  is a truth value of which nothing is said.
* `Decisive` (C44, C05): a check ends with a grant or one of the two refusals.
* `Throughout OrdinaryActor` (C60): the proxies the program uses have checkers of the package itself; a
  foreign checker may of course tell anything.  Time, memory addresses and other side channels are
  not observable in the model.

## 4. Plan per property

The ids are those of `properties.jsonl`.

| id | model | proof |
|----|-------|-------|
| C01, C02 | `check`, `check_setattr` of both checkers | case analysis against an independent verdict table |
| C03 | both checkers | equality of runs under the three provisos + a counterexample for each |
| C04, C05 | `CombinedChecker` | table by cases; chains by induction; negation with witness for a combined first checker |
| C06-C08 | `Checker.proxy`, `selectChecker` | relational specification of the factory loop, induction on fuel |
| C09, C10, C20 | `ProxyFactory`, `removeSecurityProxy`, `isinstance` | cases |
| C11, C12 | all proxy operations, programs over held values | invariant by induction over the program |
| C13, C14 | all proxy operations with ghost trace | per-operation lemma, lifted by induction |
| C15-C18 | single proxy operations | cases |
| C19 | both proxy implementations | run equality under stated assumptions |
| C21, C22 | `canAccess`, `canWrite` | cases; relation to the proxy operations; witness for the `__iter__` failure |
| C23-C25, C29, C52 | thread-local management | refinement to a per-thread two-slot machine by induction over interleaved histories |
| C26 | `management.checkPermission` | cases |
| C27, C28 | built-in policies | invariant by induction over histories |
| C30-C32 | registry, `BasicTypes`, `_clear` | refinement to a map by induction over histories |
| C33, C34 | checker constructors | induction over the name/spec lists; permutation invariance |
| C35-C37 | `protectclass` on the dictionary heap | induction over declaration sequences, frame lemmas |
| C38-C40 | directives as functions to action lists, execution | induction |
| C41, C42 | vocabularies over a list of utilities | sorting lemmas |
| C43, C44 | adapters, decorator descriptor | cases, structural induction on nested decoration |
| C45 | context manager over an arbitrary body | cases |
| C46 | sandbox policy | induction over participations |
| C47 | logging mixin | run equality up to log |
| C48, C49 | initial state with the literal default tables | table lemmas |
| C50 | small-step interleaving semantics of `defineChecker` | invariant over all schedules + race witness |
| C51 | combination of C01, C13, C28 | corollary |
| C53, C54 | module checkers, monotonicity | cases |
| C55 | all proxy operations | frame rule (`Pres`) through every operation |
| C56 | small-step interleaving semantics of `protectName` | invariant over all schedules + witness of a lost declaration |
| C57-C59 | the C code statement by statement on a machine with ownership of references | Hoare-like triple (`Good`) composed along the statements of every function; a frame rule for the fields |
| C60 | two worlds with the same state, differing in what operations on unproxied values do | relational invariant (`Tracks`): the same code does the same as long as nothing recorded concerns a difference; combined with C13 for what is recorded |
| C61 | agents, sandboxes and moves as a state machine on top of the policy of C46 | invariants by induction over move sequences; exact condition of a move |
| C62 | the loops of `turn`, with the iterator's size check | induction over homes and agents |
| C63 | the C code and the models of checkers and proxies, objects being related by an interpretation of numbers | weakest-precondition calculus (`Wp`) along the statements; calls the models do not expect may be answered in any way, so a wrong call makes the theorem unprovable |
| C64, C65 | the same C code, nothing being said about the answers | the calls each function adds to the log are followed statement by statement (`Leaves`); the specification lists the logs of a passed check and of a covered result |
| C66 | configuration, registry and compiled proxies together | invariant: what `configure` leaves registered is a checker whose dictionaries are the declared ones (`Stock`); invariant of sessions: every proxy held is the registry's (`Issued`); then C13 and C38. Witness that pure-Python proxies differ (`C66_py`) |
| C67 | reference counts, the GC functions of the C types, the collector of CPython | invariant (`Inv`: counts are right, objects without `tp_clear` refer to older ones) by induction over histories; the lists of `move_unreachable` are followed (`Scanning`); the youngest leftover leads to a contradiction |
| C68 | whole configurations: nesting, redefinitions, conflicts, overrides, undefined permissions | invariant between contexts and events read (`Reflects`); what sorting and grouping leaves is characterised by prefixes of include paths (`resolve_ok`, `wins_outermost`); then C38 directive by directive, and C66 |
| C69 | with which other objects a wrapped object is brought together; comparisons are unchecked | from C13 (mediation) operation by operation; a world whose object 9 listens |
| C70 | pickling: CheckerPublic round trip, proxies by name or not at all | computed run for CheckerPublic; invariant through lookups and calls, types of what the registry covers (`Covered`) |
| C71 | checks while other threads change declarations | two-sided monotonicity of outcomes, frozen outside the accesses made; a moved declaration for non-atomicity |
| C72 | the same as C66 with pure-Python proxies and checkers | the invariants of C66 with "no slot has been assigned"; operation by operation that a granted check leads to the operation (`Does`) |
| C73 | importing the package, with failures and repetitions | abstract execution of every body, checked by the kernel, proved sound for all runs by induction on statements and nesting; objects stamped with the execution that made them |
| C74 | slot tables by position, slots taken from an arbitrary base, the class built by loops | case analysis over all slots on top of C57-C59, C63, C64; induction over the loops |
| C75 | configuration, registry, slot tables and the C functions together | sessions of the machine are sessions of the model by C63 and C74 (`session_of`), so C66's invariants hold; calls made for the user come after a check that passed (C64), which with explained answers is a check of the model that passed (`passes_check`), which the directives permit; the converse by `Opens` |
| C76 | the syntax trees of checker.py, run | symbolic execution with step lemmas for the interpreter (`Lemmas/PyRun.lean`), for all arguments and states; induction where the source loops; `_instanceChecker` is followed when the class an object tells is a type, the other cases are outside the registry of the model |
| C77 | the syntax trees of management.py and simplepolicies.py, run | the same; induction over the participations |
| C78 | the syntax trees of proxy.py, run; the class as the module-level loops leave it | the same; sessions of the source are sessions of C72 |
| C79 | the syntax trees of protectclass.py, of `protectModule` and of the constructors and tables of checker.py, run | the same; induction over the names, keyword arguments and specifications the loops go through |
| C80 | the syntax trees of metaconfigure.py, run, and the runs of C76-C79 put together | the same; loops by induction; `C80_configure` is an equation between programs, so that the theorems of C78 carry over |
| C81 | the syntax trees of permission.py and zcml.py, run, and with C80 whole configurations | the same; an invariant relates the dictionaries of redefinitions to the model's contexts (`Nested`); conflicts by naturality of the resolving in the actions (`resolve_map`); `C81_load` is an equation, so that the theorems of C68 carry over |
| C82 | the statements of checker.py, run (`importChecker`) | evaluation by the kernel in two parts with symbolic environment (`runA`, `left_run`); lookups compared by what an entry grants (`shown`), through a correspondence of the checkers (`checkerPairs`) |
| C83 | the syntax trees of adapter.py, decorator.py and testing.py, run | the same as C76; induction over the arguments of a trusted factory; `C83_trusted` and `C83_interaction` are equations, so that the theorems of C43 and C45 carry over |
| C84 | the syntax trees of `CheckerLoggingMixin` and `CombinedChecker`, run with messages | the same as C76; induction over the nesting of combined checkers; `C84_source` is an equation, so that the theorems of C47 carry over; the text of each line is given in `linePrefix` |
| C85 | the syntax trees of the remaining functions, run | the same as C76; `C85_supplement` holds in every language, by following both outcomes of every operation |
| C86 | the elements of ZCML files, through meta.zcml, the schemas and the handlers of C80-C81 | induction over the elements (`reads_flat`) and over the events (`reads_ends`); a file that is refused by induction over the elements (`flat_known`); `C86_signatures` by induction over the fields from a check of each schema against its handler; `C86_load` is an equation, so that the theorems of C68 carry over |
| C87 | the functions, macros and type tables of the two C files | each function run by symbolic evaluation (`crun`: `simp` with the interpreter's equations) and shown equal, as a function of the memory, to the model's program; loops by induction over the fuel; the tables compared member by member; C74's and C75's theorems then carry over to the runs of the source |
| C88 | `PyInit_*`, `*_clear`, `*_dealloc`, `*_traverse` | the run of an initialisation is a finite tree over which of its calls fail; a check of all its leaves is sound for every function `fails` (`Tree.all_run`), and is evaluated by the kernel; the collector's functions by cases on the fields |
| C89 | the statements outside functions of all Python modules | translated into the lines of C73 and compared by the kernel for every module and both settings |
| C90 | every `implementer`, `provider`, `classImplements`, `moduleProvides` about an interface of the package, inherited ones too | methods exist and take all calls of the interface: lemma for all calls, finite part by the kernel |
| C91 | examples/sandbox_security.py: policy, database, permission maps, module, wiring | step-by-step runs; loops by induction over tokens, entries, methods |
| C92 | examples/sandbox.py: agents, sandboxes, services, actions, moves, with and without the wiring | step-by-step runs, layered languages; lists of moves by induction; `C92_joined` and `C92_moved` read the books of all sandboxes with `getAgentIds` before and after |
| C93 | examples/sandbox.py: constructors, `addService`, the loops of the module | step-by-step runs; loops by induction over the lists |
| C94 | examples/sandbox.py: `TimeGenerator.turn` when nobody wants to move | step-by-step run; both loops by induction |

## 5. Disagreements between code and documentation found while modelling

Each is backed by a theorem exhibiting a concrete witness (see MANIFEST.json notes).

1. `CombinedChecker(CombinedChecker(a, b), c)` silently drops `b`.
2. A `None` permission value means "undeclared" in Python, but the C checker asks the
   interaction for permission `None`.
3. The C checker applies the default-available list and the `__iter__` rule only to names
   starting with `__`.
4. The C checker's `hasattr` probe swallows every exception, the Python one only
   AttributeError.
5. `Checker.proxy` with `__Security_checker__ = None`: ValueError in C, type's checker in
   Python; C also swallows every exception of that lookup.
6. The C `selectChecker` leaves exceptions of unregistered types unprotected; Python wraps
   them.  The registry comment "None => rock" is wrong: a None entry gives TypeError.
7. Pure-Python proxies: assigning `_checker`/`_wrapped` on the proxy is not checked.
8. Pure-Python comparisons return the raw result of the wrapped object's comparison.
9. Pure-Python in-place operators re-point the shared proxy and keep the old checker.
10. Compiled `canAccess(obj, '__iter__')` can be True when access is forbidden, because the
    check is run on the proxy rather than on the object.
11. With no interaction, a non-public check raises AttributeError, not NoInteraction.
12. A failing `newInteraction` leaves earlier participations bound to a discarded
    interaction.
13. `BasicTypes.pop` and friends, and `undefineChecker`, desynchronise registry and table.
14. NamesChecker/MultiChecker compare permissions by identity: equal but distinct strings
    raise DuplicationError.
15. Types sharing a default checker object (set/frozenset, iterators) share later
    declarations.
16. `redefinePermission` is one step and order dependent.
17. `ClassDirective.require(like_class=..., attributes=...)` without permission emits the
    mimic action before raising.
18. Logging checkers are not transparent when `repr(obj)` fails.
19. ForbiddenAttribute/Unauthorized raised through a proxy carry the raw, unproxied object.
20. `defineChecker` can succeed twice when two threads race.
21. C `str(p)` returns a str-subclass result unproxied.
22. A second redefinition of a permission id in ZCML changes the meaning of its replacement, and
    `zope.Public` itself can be redefined; the validity of a permission id is checked before it is
    translated (C40).
23. `LocatingTrustedAdapterFactory` and `LocatingUntrustedAdapterFactory` turn a factory's refusal
    (`None`) into a location proxy around None (C43_none_becomes_something).
24. A sandbox home whose id is the name of a class attribute of the policy makes the check raise
    (C46_other_attribute).
25. `canAccess` of an undeclared `__iter__` is always True for compiled checkers on iterables
    (C22_iter_undeclared).
26. `BasicTypes |= ...` and `BasicTypes.setdefault` do not reach the registry (C31).
27. `protectName` loses declarations when two threads declare on a class without checker (C56_lost).
28. `CombinedChecker.check_getattr` asks the second checker with `check`.
29. `MAKE_STRING` never releases the bytes object it makes: a check of an undeclared name through a
    compiled checker leaks one, two or three objects, `default_repr` up to two (C57_leak).
30. `Checker_proxy` leaks a reference to None when `__Security_checker__` is None (C57_none), and
    `Checker.__init__` leaks the old dictionaries when called again (C57_init).
31. A name with a lone surrogate crashes `Checker_check_int` (C58_unencodable), so does
    `del checker[x]` (C58_delitem).
32. The compiled `checkPermission` uses a borrowed permission after running the policy; if the policy
    removes it from the dictionary the memory may be gone (C58_dangling).
33. The compiled `selectChecker` takes a failing `isinstance(object, Exception)` for true and returns
    None with an error set (C59_misread).
34. Whether a refused object is iterable, its class and module name, its hash and its truth value are
    told to everybody (C60_open_names); a pure-Python proxy also tells about the plain operator
    when an in-place operator is granted.
35. The sandbox example does not work on Python 3: `_homes.keys().remove` raises, the handler uses a
    variable that is not bound, and the interaction is left behind (C62).  Its checker protects
    `getAgentsIds`, a method that does not exist (C61_misspelt); jail grants the time service to
    everybody but not the way to it (C61_deeds); `transportAgent` strikes off a namesake
    (C61_namesake).
36. `SecurityProxyType` has `tp_traverse` but no `tp_clear` slot (`proxy_clear` is only called by the
    destructor).  Garbage is collected all the same since proxies refer to older objects (C67_collected),
    unless `setProxiedObject` is used on a proxy (C67_setProxied).
37. Calling `Checker.__init__` again leaks the dictionaries (C67_init_leaks).
38. `Checker_traverse` drops positive results of the visiting function, so that `gc.get_referrers` does not
    find checkers (C67_referrers).
39. With pure-Python proxies an in-place operation leaves its result under the checker of the old object,
    whatever is declared for the class of the result (C66_py).
40. A redefinition of a permission in an included file applies to the including file as well if that has
    redefined any permission before, and does not otherwise (C68, examples in `Props/File.lean`).
41. Whether permissions are defined is found out last: the exception about an undefined permission comes
    when all declarations have been carried out (C68_carried_out).
42. Comparing a proxy with an object of one's own class hands the unwrapped object to that object's reflected
    method, without any check and in both implementations (C69_handed_over); granted binary operators do likewise.
43. The worry in checker.py:361-363 ("a bit scary that we can pickle a proxy if access is granted to `__reduce__`") is
    unfounded with CPython's compiled pickler while tuples and methods are protected (C70_by_name); registering `NoProxy` for
    tuples makes it real (example in `Props/Pickle.lean`).
44. A combined check is not atomic: a declaration moved from its second checker to the first while it runs is missed, although a
    check at any single moment would be granted (C71_moved).
45. If importing `zope.security` fails after the C checkers were loaded (say, BTrees raises something else than an ImportError) and
    is repeated, the C code keeps the `CheckerPublic` of the failed execution, and treats names that are declared public afterwards
    as protected by a permission it does not know (C73_retry).
46. Proxies and checkers choose between C and Python separately: if `_proxy` can be loaded only at the second attempt, the C
    checkers make C proxies, which `removeSecurityProxy` of the Python proxies does not recognise (example in `Props/Import.lean`).
47. `_proxy.c` has no `nb_index`: with C proxies `operator.index(p)` (and so `seq[p]`, `range(p)`, `hex(p)`) is whatever the base type
    of zope.proxy does, without a check, while `ProxyPy` checks `__index__` (C74_index).  `@`, `await`, asynchronous iteration, buffers
    and `PySequence_Concat` are the base's in C, `@` also in Python (C74_left, C74_python).
48. The schema of a module's `require` has no field `interface`, although its documentation (metadirectives.py:188-193) describes it and the handler takes it
    (metaconfigure.py:224): a file that uses it is refused (C86_module_interface).
49. `like_class` is accepted together with all other arguments, although "no other argument can be used" (metadirectives.py:98-104); `allow` in `class` takes
    both its attributes, although "only one may be used" (metadirectives.py:109-113) (examples in `Props/SourceXmlShipped.lean`).
50. The test `if i:` for interfaces that are None (metaconfigure.py:90) is for `interface="*"`, which the field rejects before: it cannot be reached from ZCML
    (C86_star).
51. The `PyInit_*` functions never look at the result of `PyModule_AddObject`: when it fails, the module is returned with an
    error set, without the name, and a reference is leaked (C88_overlooked).  After any other failure NULL is returned, but what was made until then is kept.
52. Interfaces and implementations name parameters differently: `IChecker.check(ob, operation)` is `check(object, name)`, the C methods take no names at all, and
    `newInteraction(participation=None)` and `ISecurityPolicy.__call__(participation=None)` are `*participations`.  Calls by the interface's own names raise `TypeError` (C90_names).
    For the same reason `newInteraction(None)`, which by the docstring adds nothing ("If participation is not None, it is added"), adds `None` and fails with `AttributeError`.
    Nothing declares `ISecurityChecking` (C90_undeclared).
