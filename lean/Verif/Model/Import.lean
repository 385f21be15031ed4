/-
Importing the package: the module-level code of every module of `zope.security`
and the initialisation functions of its two extension modules, run by a model of
Python's import system.

Sources modelled:
* the import statements and the module-level assignments of every file under
  `src/zope/security/*.py`;
* `_proxy.c:851-955` (`PyInit__proxy`), `_zope_security_checker.c:567-673`
  (`PyInit__zope_security_checker`).

What an import does (CPython's `importlib._bootstrap._find_and_load`): a module
found in `sys.modules` is returned as it is, even when its body is still running;
otherwise the parent package is imported first; then, if the module is still not
there, its body is run.  A Python module is entered into `sys.modules` before its
body is run and removed again if the body raises.  A C module with single-phase
initialisation (`PyModule_Create`) is entered only after its `PyInit` function has
returned, and the C static variables it assigned keep their values if it fails.

Simplifications: modules outside the package (`zope.interface`, `zope.location`,
`zope.component`, …) do not import `zope.security` back; they are steps that may
raise.  A function, a class or an object built by module-level code is known by the
module that built it, a label and the number of the execution of that module.  Names
that no other module and no statement below reads are left out (the interfaces
`IGroup`, …, the helper functions of `checker.py`).  Submodules are not stored as
attributes of the package.
-/

namespace ZS.Imp

/-- The modules of the package, ordered so that a module comes after those it imports
(the one exception is `cchecker`, `_zope_security_checker.c:640-648`, which imports
`checker`). -/
inductive Mod
  | i18n | compat | cproxy | interfaces | defs | proxy | cchecker | checker | decorator
  | simplepolicies | management | permission | protectclass | zcml | testing | adapter
  | metaconfigure | metadirectives | pkg
  deriving DecidableEq, Repr

/-- The position of a module in that order. -/
def Mod.rank : Mod → Nat
  | .i18n => 0 | .compat => 1 | .cproxy => 2 | .interfaces => 3 | .defs => 4
  | .proxy => 5 | .cchecker => 6 | .checker => 7 | .decorator => 8
  | .simplepolicies => 9 | .management => 10 | .permission => 11 | .protectclass => 12
  | .zcml => 13 | .testing => 14 | .adapter => 15 | .metaconfigure => 16
  | .metadirectives => 17 | .pkg => 18

/-- `zope.security._proxy` and `zope.security._zope_security_checker` are C modules. -/
def isC : Mod → Bool
  | .cproxy => true
  | .cchecker => true
  | _ => false

abbrev Name := String

/-- What a name can be bound to. -/
inductive Val
  /-- an object built by the `run`-th execution of the module's body -/
  | made (m : Mod) (what : Name) (run : Nat)
  /-- a static type or function of a C module -/
  | static (m : Mod) (what : Name)
  /-- the bound method `d.get` -/
  | get (d : Val)
  | module (m : Mod)
  | flag (b : Bool)
  deriving DecidableEq, Repr

/-- A namespace (a module's `__dict__`, or the static variables of a C module). -/
abbrev Ns := List (Name × Val)

def Ns.look : Ns → Name → Option Val
  | [], _ => none
  | (x, v) :: r, n => if x = n then some v else Ns.look r n

def Ns.drop : Ns → Name → Ns
  | [], _ => []
  | (x, v) :: r, n => if x = n then Ns.drop r n else (x, v) :: Ns.drop r n

def Ns.set (ns : Ns) (n : Name) (v : Val) : Ns := (n, v) :: ns.drop n

/-- Only the names in `l`. -/
def Ns.only (l : List Name) : Ns → Ns
  | [] => []
  | (x, v) :: r => if x ∈ l then (x, v) :: Ns.only l r else Ns.only l r

/-- Exceptions, as far as `except (ImportError, AttributeError)` (checker.py:515,
proxy.py:356) tells them apart. -/
inductive Err | importError | attributeError | nameError | other
  deriving DecidableEq, Repr

/-- An entry of `sys.modules`. -/
structure Entry where
  /-- the body has run to its end -/
  done : Bool
  ns : Ns
  deriving DecidableEq, Repr

structure St where
  /-- `sys.modules` -/
  mods : Mod → Option Entry
  /-- the static variables of the C modules -/
  stat : Mod → Ns
  /-- how often the body of a module has been started -/
  runs : Mod → Nat
  /-- statements executed so far -/
  steps : Nat
  /-- what was stored in mutable objects -/
  filled : List (Val × Name)

/-- A fresh interpreter. -/
def St.fresh : St := ⟨fun _ => none, fun _ => [], fun _ => 0, 0, []⟩

/-- Where the package is imported. -/
structure Env where
  /-- `PURE_PYTHON` (`_compat.py:20-22`) -/
  pure : Bool
  /-- `ZOPE_WATCH_CHECKERS` (checker.py:97-103) -/
  watch : Bool
  /-- `_proxy` was compiled and can be loaded -/
  proxyBuilt : Bool
  /-- `_zope_security_checker` was compiled and can be loaded -/
  checkerBuilt : Bool
  /-- the exception that strikes in the n-th statement executed, if any: an external
  module that cannot be imported, memory exhausted, an interrupt -/
  fault : Nat → Option Err

/-- The C module was compiled and can be loaded. -/
def Env.built (env : Env) : Mod → Bool
  | .cproxy => env.proxyBuilt
  | .cchecker => env.checkerBuilt
  | _ => false

/-- Module-level statements. -/
inductive Stmt
  /-- code that reads the given globals -/
  | work (uses : List Name)
  /-- `try: <work> except ImportError: pass` -/
  | optional (uses : List Name)
  | const (x : Name) (b : Bool)
  /-- `x = <a new object>`, also `def x` and `class x`, reading the given globals -/
  | new (x what : Name) (uses : List Name)
  /-- a static type made ready, a function of the method table -/
  | static (x : Name)
  | alias (x y : Name)
  /-- `x = y.get` -/
  | getOf (x y : Name)
  /-- `x = not y` -/
  | notOf (x y : Name)
  | del (x : Name)
  /-- `import zope.security.t` -/
  | imp (t : Mod)
  /-- `from zope.security.t import n as x` -/
  | frm (t : Mod) (n x : Name)
  /-- `PyObject_GetAttrString` on the module just imported -/
  | attr (t : Mod) (n x : Name)
  /-- `from zope.security import t` -/
  | sub (t : Mod) (x : Name)
  /-- `x.n = y` for a module `x` -/
  | setattr (x n y : Name)
  /-- `x[:] = …`, `x.update(…)`, `x.__class__ = …` -/
  | fill (x what : Name) (uses : List Name)
  /-- `try: import zope.security.t` / `except (ImportError, AttributeError): f = False` -/
  | tryImp (t : Mod) (f : Name)
  /-- `try: from zope.security.t import n as x` / `except …: f = False` -/
  | tryFrm (t : Mod) (n x f : Name)
  deriving DecidableEq, Repr

/-- A statement under `if` conditions on flags. -/
structure Line where
  guard : List (Name × Bool)
  stmt : Stmt
  deriving DecidableEq, Repr

/-- An unconditional statement. -/
def always (s : Stmt) : Line := ⟨[], s⟩

/-! ### The bodies -/

/-- `i18n.py:19-22`. -/
def i18nBody : List Line :=
  [always (.new "ZopeMessageFactory" "ZopeMessageFactory" [])]

/-- `_compat.py:16-46`. -/
def compatBody (pure : Bool) : List Line :=
  [always (.work []),
   always (.const "PURE_PYTHON" pure),
   always (.new "implementer_if_needed" "implementer_if_needed" [])]

/-- `_proxy.c:863-941`: the strings the slot functions use, each kept in a static variable.
`INIT_STRING(S)` assigns `str_S`, `INIT_STRING_OP(S)` assigns `str_op_S`. -/
def cproxyStrings : List (Name × Name) :=
  [("str___3pow__", "__3pow__"), ("str___bool__", "__bool__"), ("str___call__", "__call__"),
   ("str_check", "check"), ("str_check_getattr", "check_getattr"),
   ("str_check_setattr", "check_setattr"), ("str___cmp__", "__cmp__"),
   ("str___contains__", "__contains__"), ("str___delitem__", "__delitem__"),
   ("str___getitem__", "__getitem__"), ("str___hash__", "__hash__"),
   ("str___iter__", "__iter__"), ("str___len__", "__len__"), ("str___next__", "__next__"),
   ("str_op_abs", "__abs__"), ("str_op_add", "__add__"), ("str_op_and", "__and__"),
   ("str_op_divmod", "__divmod__"), ("str_op_float", "__float__"),
   ("str_op_floordiv", "__floordiv__"), ("str_op_iadd", "__iadd__"),
   ("str_op_iand", "__iand__"), ("str_op_ifloordiv", "__ifloordiv__"),
   ("str_op_ilshift", "__ilshift__"), ("str_op_imod", "__imod__"),
   ("str_op_imul", "__imul__"), ("str_op_int", "__int__"), ("str_op_invert", "__invert__"),
   ("str_op_ior", "__ior__"), ("str_op_ipow", "__ipow__"), ("str_op_irshift", "__irshift__"),
   ("str_op_isub", "__isub__"), ("str_op_itruediv", "__itruediv__"),
   ("str_op_ixor", "__ixor__"), ("str_op_lshift", "__lshift__"), ("str_op_mod", "__mod__"),
   ("str_op_mul", "__mul__"), ("str_op_neg", "__neg__"), ("str_op_or", "__or__"),
   ("str_op_pos", "__pos__"), ("str_op_radd", "__radd__"), ("str_op_rand", "__rand__"),
   ("str_op_rdivmod", "__rdivmod__"), ("str_op_rfloordiv", "__rfloordiv__"),
   ("str_op_rlshift", "__rlshift__"), ("str_op_rmod", "__rmod__"),
   ("str_op_rmul", "__rmul__"), ("str_op_ror", "__ror__"), ("str_op_rrshift", "__rrshift__"),
   ("str_op_rshift", "__rshift__"), ("str_op_rsub", "__rsub__"),
   ("str_op_rtruediv", "__rtruediv__"), ("str_op_rxor", "__rxor__"),
   ("str_op_sub", "__sub__"), ("str_op_truediv", "__truediv__"), ("str_op_xor", "__xor__"),
   ("str___pow__", "__pow__"), ("str_proxy", "proxy"), ("str___repr__", "__repr__"),
   ("str___rpow__", "__rpow__"), ("str___setitem__", "__setitem__"),
   ("str___str__", "__str__"), ("__class__str", "__class__"), ("__name__str", "__name__"),
   ("__module__str", "__module__")]

/-- A string made by `PyUnicode_InternFromString` or `PyUnicode_FromString`, kept in a static
variable.  The label of the object is its text. -/
def intern (q : Name × Name) : Line := always (.new q.1 q.2 [])

/-- `_proxy.c:851-955`: the method table is there from the start (`module_functions`,
844-849), `zope.proxy` is imported (860), the strings are made (863-941), the type
is made ready and exposed last (943-954). -/
def cproxyBody : List Line :=
  [always (.static "getChecker"),
   always (.static "getObject"),
   always (.work [])] ++
  cproxyStrings.map intern ++
  [always (.static "_Proxy")]

/-- `interfaces.py`: the names other modules use. -/
def interfacesBody : List Line :=
  [always (.work []),
   always (.frm .i18n "ZopeMessageFactory" "_"),
   always (.new "PUBLIC_PERMISSION_NAME" "PUBLIC_PERMISSION_NAME" []),
   always (.new "IUnauthorized" "IUnauthorized" []),
   always (.new "Unauthorized" "Unauthorized" ["IUnauthorized"]),
   always (.new "IForbidden" "IForbidden" []),
   always (.new "Forbidden" "Forbidden" ["IForbidden"]),
   always (.new "IForbiddenAttribute" "IForbiddenAttribute" ["IForbidden"]),
   always (.new "ForbiddenAttribute" "ForbiddenAttribute"
     ["IForbiddenAttribute", "Forbidden"]),
   always (.new "ISecurityManagement" "ISecurityManagement" []),
   always (.new "ISecurityProxyFactory" "ISecurityProxyFactory" []),
   always (.new "IChecker" "IChecker" []),
   always (.new "INameBasedChecker" "INameBasedChecker" ["IChecker"]),
   always (.new "ISecurityPolicy" "ISecurityPolicy" []),
   always (.new "IInteraction" "IInteraction" []),
   always (.new "IParticipation" "IParticipation" []),
   always (.new "NoInteraction" "NoInteraction" []),
   always (.new "IInteractionManagement" "IInteractionManagement" []),
   always (.new "IPrincipal" "IPrincipal" ["_"]),
   always (.new "ISystemPrincipal" "ISystemPrincipal" ["IPrincipal"]),
   -- `IGroupAwarePrincipal`, `IGroup`
   always (.work ["IPrincipal"]),
   always (.work ["IPrincipal"]),
   always (.new "IPermission" "IPermission" ["_"])]

/-- `_definitions.py:16-33`. -/
def defsBody : List Line :=
  [always (.work []),
   always (.sub .interfaces "interfaces"),
   always (.new "thread_local" "thread_local" []),
   always (.new "SystemUser" "SystemUser" ["interfaces"]),
   always (.new "system_user" "system_user" ["SystemUser"])]

/-- `proxy.py:19-390`. -/
def proxyBody : List Line :=
  [always (.work []),
   always (.frm .compat "PURE_PYTHON" "PURE_PYTHON"),
   always (.new "ProxyPy" "ProxyPy" []),
   -- the methods made in loops
   always (.work ["ProxyPy"]),
   always (.work ["ProxyPy"]),
   always (.work ["ProxyPy"]),
   always (.new "getCheckerPy" "getCheckerPy" []),
   always (.new "getObjectPy" "getObjectPy" []),
   -- 352-357
   always (.notOf "_c_available" "PURE_PYTHON"),
   ⟨[("_c_available", true)], .tryFrm .cproxy "_Proxy" "_Proxy" "_c_available"⟩,
   -- 360-362
   always (.alias "getChecker" "getCheckerPy"),
   always (.alias "getObject" "getObjectPy"),
   always (.alias "Proxy" "ProxyPy"),
   -- 364-367
   ⟨[("_c_available", true)], .frm .cproxy "getChecker" "getChecker"⟩,
   ⟨[("_c_available", true)], .frm .cproxy "getObject" "getObject"⟩,
   ⟨[("_c_available", true)], .alias "Proxy" "_Proxy"⟩,
   -- 369
   always (.alias "removeSecurityProxy" "getObject")]

/-- `_zope_security_checker.c:567-673`, assigning the C static variables. -/
def ccheckerBody : List Line :=
  [always (.static "selectChecker"),
   -- 579-583
   always (.static "Checker"),
   -- 585-589
   always (.new "_defaultChecker" "_defaultChecker" ["Checker"]),
   -- 591-596
   intern ("str_checkPermission", "checkPermission"),
   intern ("str___Security_checker__", "__Security_checker__"),
   intern ("str_interaction", "interaction"),
   -- 598-601
   always (.new "_checkers" "_checkers" []),
   -- 603-607
   always (.new "NoProxy" "NoProxy" []),
   -- 609-617
   always (.imp .cproxy),
   always (.attr .cproxy "_Proxy" "Proxy"),
   -- 619-628
   always (.imp .defs),
   always (.attr .defs "thread_local" "thread_local"),
   -- 630-644
   always (.imp .interfaces),
   always (.attr .interfaces "ForbiddenAttribute" "ForbiddenAttribute"),
   always (.attr .interfaces "Unauthorized" "Unauthorized"),
   -- 646-655
   always (.imp .checker),
   always (.attr .checker "CheckerPublic" "CheckerPublic"),
   -- 657-660
   always (.new "_available_by_default" "_available_by_default" [])]

/-- `checker.py`, statement by statement as far as the names below are concerned. -/
def checkerBody (watch : Bool) : List Line :=
  [-- 60-77
   always (.work []),
   -- 79-88
   always (.frm .compat "PURE_PYTHON" "PURE_PYTHON"),
   always (.frm .compat "implementer_if_needed" "implementer_if_needed"),
   always (.frm .defs "thread_local" "thread_local"),
   always (.frm .interfaces "ForbiddenAttribute" "ForbiddenAttribute"),
   always (.frm .interfaces "IChecker" "IChecker"),
   always (.frm .interfaces "INameBasedChecker" "INameBasedChecker"),
   always (.frm .interfaces "ISecurityProxyFactory" "ISecurityProxyFactory"),
   always (.frm .interfaces "Unauthorized" "Unauthorized"),
   always (.frm .proxy "Proxy" "Proxy"),
   always (.frm .proxy "getChecker" "getChecker"),
   -- 91-95
   always (.optional []),
   -- 97-103
   always (.const "WATCH_CHECKERS" watch),
   -- 106-135
   always (.new "ProxyFactory" "ProxyFactory" []),
   always (.work ["ProxyFactory", "ISecurityProxyFactory"]),
   -- 138-141
   always (.sub .proxy "proxy"),
   always (.setattr "proxy" "ProxyFactory" "ProxyFactory"),
   -- 144-195
   always (.new "canWrite" "canWrite" []),
   always (.new "canAccess" "canAccess" []),
   -- 198-293
   always (.new "CheckerPy" "CheckerPy" ["INameBasedChecker"]),
   always (.alias "Checker" "CheckerPy"),
   -- 297-345
   always (.new "TracebackSupplement" "TracebackSupplement" []),
   always (.new "Global" "class Global" []),
   -- 348-359
   always (.new "CheckerPublic" "Global" ["Global"]),
   always (.alias "CP_HACK_XXX" "CheckerPublic"),
   always (.new "CheckerPublic" "CheckerPublic" ["Proxy", "CheckerPublic", "Checker"]),
   always (.alias "CheckerPublic.type" "Proxy"),
   always (.alias "CheckerPublic.checker.type" "Checker"),
   always (.work ["CheckerPublic"]),
   always (.work ["CheckerPublic"]),
   -- 366, 385, 393: the default of `permission_id` is evaluated here
   always (.new "NamesChecker" "NamesChecker" ["CheckerPublic"]),
   always (.alias "NamesChecker.permission_id" "CheckerPublic"),
   always (.new "InterfaceChecker" "InterfaceChecker" ["CheckerPublic"]),
   always (.alias "InterfaceChecker.permission_id" "CheckerPublic"),
   always (.new "MultiChecker" "MultiChecker" []),
   -- 431-465
   always (.new "selectCheckerPy" "selectCheckerPy" []),
   always (.alias "selectChecker" "selectCheckerPy"),
   -- 468-489
   always (.new "getCheckerForInstancesOf" "getCheckerForInstancesOf" []),
   always (.new "defineChecker" "defineChecker" []),
   always (.new "undefineChecker" "undefineChecker" []),
   -- 493, 505-508
   always (.new "NoProxy" "NoProxy" []),
   always (.new "_checkers" "_checkers" []),
   always (.new "_defaultChecker" "_defaultChecker" ["Checker"]),
   always (.new "_available_by_default" "_available_by_default" []),
   -- 511-516
   always (.notOf "_c_available" "PURE_PYTHON"),
   ⟨[("_c_available", true)], .tryImp .cchecker "_c_available"⟩,
   -- 518-525
   ⟨[("_c_available", true)], .frm .cchecker "Checker" "Checker"⟩,
   ⟨[("_c_available", true)], .frm .cchecker "NoProxy" "NoProxy"⟩,
   ⟨[("_c_available", true)],
     .frm .cchecker "_available_by_default" "_available_by_default"⟩,
   ⟨[("_c_available", true)], .frm .cchecker "_checkers" "_checkers"⟩,
   ⟨[("_c_available", true)], .frm .cchecker "_defaultChecker" "_defaultChecker"⟩,
   ⟨[("_c_available", true)], .frm .cchecker "selectChecker" "selectChecker"⟩,
   ⟨[("_c_available", true)], .work ["Checker", "INameBasedChecker"]⟩,
   -- 528
   always (.getOf "_getChecker" "_checkers"),
   -- 531-588
   always (.new "CombinedChecker" "CombinedChecker"
     ["implementer_if_needed", "IChecker", "Checker"]),
   always (.alias "CombinedChecker.base" "Checker"),
   -- 591-689
   always (.new "CheckerLoggingMixin" "CheckerLoggingMixin" []),
   always (.new "WatchingChecker" "WatchingChecker" ["CheckerLoggingMixin", "Checker", "WATCH_CHECKERS"]),
   always (.alias "WatchingChecker.base" "Checker"),
   always (.new "WatchingCombinedChecker" "WatchingCombinedChecker"
     ["CombinedChecker", "WatchingChecker", "WATCH_CHECKERS"]),
   -- 692-702
   ⟨[("WATCH_CHECKERS", true)], .alias "Checker" "WatchingChecker"⟩,
   ⟨[("WATCH_CHECKERS", true)], .alias "CombinedChecker" "WatchingCombinedChecker"⟩,
   ⟨[("WATCH_CHECKERS", true), ("_c_available", false)],
     .fill "_defaultChecker" "__class__ = WatchingChecker" ["Checker"]⟩,
   -- 705-717
   always (.new "moduleChecker" "moduleChecker" []),
   -- 720-727
   always (.fill "_available_by_default" "the default names" []),
   -- 729-749
   always (.work ["NamesChecker", "Checker"]),
   always (.work ["NamesChecker", "Checker"]),
   always (.work ["NamesChecker", "Checker"]),
   always (.work ["NamesChecker", "Checker"]),
   always (.work ["NamesChecker", "Checker"]),
   -- 751-802
   always (.work ["NoProxy"]),
   always (.optional ["NoProxy"]),
   always (.new "BasicTypes" "BasicTypes" []),
   -- 829-917
   always (.work ["InterfaceChecker", "CheckerPublic", "Checker", "NamesChecker"]),
   always (.new "_default_checkers" "_default_checkers"
     ["Proxy", "NamesChecker", "Checker", "NoProxy", "InterfaceChecker", "CheckerPublic"]),
   always (.alias "_default_checkers[Proxy]" "NoProxy"),
   -- 920-1073
   always (.work ["_default_checkers"]),
   always (.optional ["_default_checkers"]),
   always (.work ["NoProxy", "_default_checkers"]),
   always (.work ["_default_checkers"]),
   -- 1076-1082
   always (.work ["_checkers", "_default_checkers", "BasicTypes"]),
   always (.fill "_checkers" "the default checkers" ["_default_checkers", "BasicTypes"]),
   -- 1084-1089
   always (.optional [])]

/-- `decorator.py:20-81`. -/
def decoratorBody : List Line :=
  [always (.work []),
   always (.frm .checker "CombinedChecker" "CombinedChecker"),
   always (.frm .checker "selectChecker" "selectChecker"),
   always (.frm .proxy "Proxy" "Proxy"),
   always (.frm .proxy "getChecker" "getChecker"),
   always (.new "DecoratedSecurityCheckerDescriptor" "DecoratedSecurityCheckerDescriptor" []),
   always (.new "SecurityCheckerDecoratorBase" "SecurityCheckerDecoratorBase"
     ["DecoratedSecurityCheckerDescriptor"]),
   always (.new "DecoratorBase" "DecoratorBase" ["SecurityCheckerDecoratorBase"]),
   always (.work ["DecoratedSecurityCheckerDescriptor"])]

/-- `simplepolicies.py:22-76`. -/
def simplepoliciesBody : List Line :=
  [always (.work []),
   always (.frm .defs "system_user" "system_user"),
   always (.frm .checker "CheckerPublic" "CheckerPublic"),
   always (.frm .interfaces "IInteraction" "IInteraction"),
   always (.frm .interfaces "ISecurityPolicy" "ISecurityPolicy"),
   always (.new "ParanoidSecurityPolicy" "ParanoidSecurityPolicy"
     ["IInteraction", "ISecurityPolicy"]),
   always (.new "PermissiveSecurityPolicy" "PermissiveSecurityPolicy"
     ["ISecurityPolicy", "ParanoidSecurityPolicy"])]

/-- `management.py:21-173`. -/
def managementBody : List Line :=
  [always (.work []),
   always (.frm .defs "system_user" "system_user"),
   always (.frm .defs "thread_local" "thread_local"),
   always (.frm .checker "CheckerPublic" "CheckerPublic"),
   always (.frm .interfaces "IInteractionManagement" "IInteractionManagement"),
   always (.frm .interfaces "ISecurityManagement" "ISecurityManagement"),
   always (.frm .interfaces "NoInteraction" "NoInteraction"),
   always (.frm .simplepolicies "ParanoidSecurityPolicy" "ParanoidSecurityPolicy"),
   always (.alias "_defaultPolicy" "ParanoidSecurityPolicy"),
   always (.work ["ISecurityManagement", "IInteractionManagement"]),
   always (.new "setSecurityPolicy" "setSecurityPolicy" []),
   always (.new "newInteraction" "newInteraction" []),
   always (.new "endInteraction" "endInteraction" []),
   always (.new "checkPermission" "checkPermission" []),
   always (.optional ["endInteraction"])]

/-- `permission.py:18-110`. -/
def permissionBody : List Line :=
  [always (.work []),
   always (.frm .checker "CheckerPublic" "CheckerPublic"),
   always (.frm .interfaces "PUBLIC_PERMISSION_NAME" "zope_Public"),
   always (.frm .interfaces "IPermission" "IPermission"),
   always (.new "Permission" "Permission" ["IPermission"]),
   always (.new "checkPermission" "checkPermission" []),
   always (.new "allPermissions" "allPermissions" []),
   always (.new "PermissionsVocabulary" "PermissionsVocabulary" []),
   always (.work ["PermissionsVocabulary"]),
   always (.new "PermissionIdsVocabulary" "PermissionIdsVocabulary" []),
   always (.work ["PermissionIdsVocabulary"])]

/-- `protectclass.py:17-70`. -/
def protectclassBody : List Line :=
  [always (.frm .checker "Checker" "Checker"),
   always (.frm .checker "CheckerPublic" "CheckerPublic"),
   always (.frm .checker "defineChecker" "defineChecker"),
   always (.frm .checker "getCheckerForInstancesOf" "getCheckerForInstancesOf"),
   always (.frm .interfaces "PUBLIC_PERMISSION_NAME" "zope_Public"),
   always (.new "protectName" "protectName" []),
   always (.new "protectSetAttribute" "protectSetAttribute" []),
   always (.new "protectLikeUnto" "protectLikeUnto" [])]

/-- `zcml.py:18-130`. -/
def zcmlBody : List Line :=
  [always (.work []),
   always (.frm .compat "implementer_if_needed" "implementer_if_needed"),
   always (.frm .interfaces "PUBLIC_PERMISSION_NAME" "zope_Public"),
   always (.frm .management "setSecurityPolicy" "setSecurityPolicy"),
   always (.frm .permission "checkPermission" "checkPermission"),
   always (.new "Permission" "Permission" ["implementer_if_needed"]),
   always (.new "securityPolicy" "securityPolicy" []),
   always (.new "permission" "permission" []),
   -- `IRedefinePermission`
   always (.work ["Permission"]),
   always (.new "redefinePermission" "redefinePermission" [])]

/-- `testing.py:19-110`. -/
def testingBody : List Line :=
  [always (.work []),
   always (.imp .management),
   always (.work []),
   always (.sub .interfaces "interfaces"),
   always (.frm .interfaces "PUBLIC_PERMISSION_NAME" "PUBLIC_PERMISSION_NAME"),
   always (.frm .permission "Permission" "Permission"),
   always (.new "Principal" "Principal" ["interfaces"]),
   always (.new "Participation" "Participation" ["interfaces"]),
   always (.new "addCheckerPublic" "addCheckerPublic" [])]

/-- `adapter.py:17-160`. -/
def adapterBody : List Line :=
  [always (.work []),
   always (.frm .checker "ProxyFactory" "ProxyFactory"),
   always (.frm .proxy "removeSecurityProxy" "removeSecurityProxy"),
   always (.new "LocatingTrustedAdapterFactory" "LocatingTrustedAdapterFactory" []),
   always (.new "TrustedAdapterFactory" "TrustedAdapterFactory"
     ["LocatingTrustedAdapterFactory"]),
   always (.new "LocatingUntrustedAdapterFactory" "LocatingUntrustedAdapterFactory" [])]

/-- `metaconfigure.py:18-240`. -/
def metaconfigureBody : List Line :=
  [always (.work []),
   always (.frm .checker "Checker" "Checker"),
   always (.frm .checker "CheckerPublic" "CheckerPublic"),
   always (.frm .checker "defineChecker" "defineChecker"),
   always (.frm .checker "moduleChecker" "moduleChecker"),
   always (.frm .interfaces "PUBLIC_PERMISSION_NAME" "PublicPermission"),
   always (.frm .protectclass "protectLikeUnto" "protectLikeUnto"),
   always (.frm .protectclass "protectName" "protectName"),
   always (.frm .protectclass "protectSetAttribute" "protectSetAttribute"),
   always (.new "ClassDirective" "ClassDirective" []),
   always (.new "protectModule" "protectModule" [])]

/-- `metadirectives.py:18-200`. -/
def metadirectivesBody : List Line :=
  [always (.work []),
   always (.imp .zcml),
   always (.frm .i18n "ZopeMessageFactory" "_"),
   always (.frm .zcml "Permission" "Permission"),
   -- the schemas
   always (.work ["_"]),
   always (.work ["_"]),
   always (.new "IRequireSubdirective" "IRequireSubdirective" ["_"]),
   always (.work ["_"]),
   always (.work ["_"]),
   always (.work ["Permission"])]

/-- `__init__.py:19-23`. -/
def pkgBody : List Line :=
  [always (.imp .decorator),
   always (.frm .checker "canAccess" "canAccess"),
   always (.frm .checker "canWrite" "canWrite"),
   always (.frm .management "checkPermission" "checkPermission")]

/-- The module-level code of every module, given `PURE_PYTHON` and
`ZOPE_WATCH_CHECKERS`. -/
def body (pure watch : Bool) : Mod → List Line
  | .i18n => i18nBody
  | .compat => compatBody pure
  | .cproxy => cproxyBody
  | .interfaces => interfacesBody
  | .defs => defsBody
  | .proxy => proxyBody
  | .cchecker => ccheckerBody
  | .checker => checkerBody watch
  | .decorator => decoratorBody
  | .simplepolicies => simplepoliciesBody
  | .management => managementBody
  | .permission => permissionBody
  | .protectclass => protectclassBody
  | .zcml => zcmlBody
  | .testing => testingBody
  | .adapter => adapterBody
  | .metaconfigure => metaconfigureBody
  | .metadirectives => metadirectivesBody
  | .pkg => pkgBody

/-- The names a C module puts into its dictionary: `_proxy.c:844-849,952`,
`_zope_security_checker.c:561-565,662-671`. -/
def exports : Mod → List Name
  | .cproxy => ["getChecker", "getObject", "_Proxy"]
  | .cchecker =>
      ["selectChecker", "_checkers", "NoProxy", "_defaultChecker",
       "_available_by_default", "Checker"]
  | _ => []

/-! ### Running a body -/

/-- The namespace module-level code reads and writes. -/
def own (m : Mod) (s : St) : Ns :=
  if isC m then s.stat m
  else match s.mods m with
    | some e => e.ns
    | none => []

def setMod (s : St) (m : Mod) (e : Option Entry) : St :=
  { s with mods := fun u => if u = m then e else s.mods u }

def setStat (s : St) (m : Mod) (ns : Ns) : St :=
  { s with stat := fun u => if u = m then ns else s.stat u }

def setOwn (m : Mod) (ns : Ns) (s : St) : St :=
  if isC m then setStat s m ns
  else match s.mods m with
    | some e => setMod s m (some { e with ns := ns })
    | none => s

/-- An outcome: `none` if nothing was raised. -/
abbrev Out := Option Err × St

/-- `x = v` at module level. -/
def assign (m : Mod) (x : Name) (v : Val) (s : St) : Out :=
  (none, setOwn m ((own m s).set x v) s)

/-- `x = v` where `v` may be missing. -/
def assign? (m : Mod) (x : Name) (v : Option Val) (e : Err) (s : St) : Out :=
  match v with
  | some v => assign m x v s
  | none => (some e, s)

/-- Every name is bound. -/
def bound (ns : Ns) (l : List Name) : Bool := l.all fun n => (ns.look n).isSome

/-- A name of a module found in `sys.modules`. -/
def peek (s : St) (t : Mod) (n : Name) : Option Val :=
  match s.mods t with
  | some e => e.ns.look n
  | none => none

def caught : Err → Bool
  | .importError => true
  | .attributeError => true
  | _ => false

/-- One statement. -/
def runStmt (imp : Mod → St → Out) (m : Mod) (st : Stmt) (s : St) : Out :=
  match st with
  | .work uses => if bound (own m s) uses then (none, s) else (some .nameError, s)
  | .optional uses => if bound (own m s) uses then (none, s) else (some .nameError, s)
  | .const x b => assign m x (.flag b) s
  | .new x what uses =>
      if bound (own m s) uses then assign m x (.made m what (s.runs m)) s
      else (some .nameError, s)
  | .static x => assign m x (.static m x) s
  | .alias x y => assign? m x ((own m s).look y) .nameError s
  | .getOf x y => assign? m x (((own m s).look y).map .get) .nameError s
  | .notOf x y =>
      match (own m s).look y with
      | some (.flag b) => assign m x (.flag (!b)) s
      | _ => (some .nameError, s)
  | .del x => (none, setOwn m ((own m s).drop x) s)
  | .imp t => imp t s
  | .frm t n x =>
      match imp t s with
      | (none, s') => assign? m x (peek s' t n) .importError s'
      | r => r
  | .attr t n x => assign? m x (peek s t n) .attributeError s
  | .sub t x =>
      match imp t s with
      | (none, s') => assign m x (.module t) s'
      | r => r
  | .setattr x n y =>
      match (own m s).look x, (own m s).look y with
      | some (.module t), some v =>
          match s.mods t with
          | some e => (none, setMod s t (some { e with ns := e.ns.set n v }))
          | none => (none, s)
      | _, _ => (some .nameError, s)
  | .fill x what uses =>
      if bound (own m s) uses then
        match (own m s).look x with
        | some v => (none, { s with filled := (v, what) :: s.filled })
        | none => (some .nameError, s)
      else (some .nameError, s)
  | .tryImp t f =>
      match imp t s with
      | (none, s') => (none, s')
      | (some e, s') => if caught e then assign m f (.flag false) s' else (some e, s')
  | .tryFrm t n x f =>
      match imp t s with
      | (none, s') =>
          match peek s' t n with
          | some v => assign m x v s'
          | none => assign m f (.flag false) s'
      | (some e, s') => if caught e then assign m f (.flag false) s' else (some e, s')

/-- The `if`s around a statement. -/
def holds (ns : Ns) : List (Name × Bool) → Option Bool
  | [] => some true
  | (x, b) :: r =>
      match ns.look x with
      | some (.flag c) => if c = b then holds ns r else some false
      | _ => none

/-- A fault strikes while a statement is executed: `except ImportError: pass` and
`except (ImportError, AttributeError): f = False` deal with it. -/
def struck (m : Mod) (st : Stmt) (e : Err) (s : St) : Out :=
  match st with
  | .optional _ => if e = .importError then (none, s) else (some e, s)
  | .tryImp _ f => if caught e then assign m f (.flag false) s else (some e, s)
  | .tryFrm _ _ _ f => if caught e then assign m f (.flag false) s else (some e, s)
  | _ => (some e, s)

/-- One line: a fault may strike instead of the statement. -/
def runLine (env : Env) (imp : Mod → St → Out) (m : Mod) (l : Line) (s : St) : Out :=
  match holds (own m s) l.guard with
  | some true =>
      match env.fault s.steps with
      | some e => struck m l.stmt e { s with steps := s.steps + 1 }
      | none => runStmt imp m l.stmt { s with steps := s.steps + 1 }
  | some false => (none, s)
  | none => (some .nameError, s)

def runLines (env : Env) (imp : Mod → St → Out) (m : Mod) : List Line → St → Out
  | [], s => (none, s)
  | l :: r, s =>
      match runLine env imp m l s with
      | (none, s') => runLines env imp m r s'
      | x => x

/-! ### Importing -/

/-- One more execution of the body of `m`. -/
def started (s : St) (m : Mod) : St :=
  { s with runs := fun u => if u = m then s.runs u + 1 else s.runs u }

/-- Run the body of a module that is not in `sys.modules`. -/
def load (env : Env) (imp : Mod → St → Out) (m : Mod) (s : St) : Out :=
  if isC m then
    if env.built m then
      match runLines env imp m (body env.pure env.watch m) (started s m) with
      | (none, s') => (none, setMod s' m (some ⟨true, (s'.stat m).only (exports m)⟩))
      | r => r
    else (some .importError, s)
  else
    match runLines env imp m (body env.pure env.watch m) (setMod (started s m) m (some ⟨false, []⟩)) with
    | (none, s') => (none, setMod s' m (some ⟨true, own m s'⟩))
    | (some e, s') => (some e, setMod s' m none)

/-- `import zope.security.m` (`m = pkg`: `import zope.security`).  `fuel` bounds the
depth to which imports are nested. -/
def imp (env : Env) : Nat → Mod → St → Out
  | 0, _, s => (some .other, s)
  | fuel + 1, m, s =>
      if (s.mods m).isSome then (none, s)
      else if m = .pkg then load env (imp env fuel) .pkg s
      else if (s.mods .pkg).isSome then load env (imp env fuel) m s
      else
        match load env (imp env fuel) .pkg s with
        | (none, s') =>
            if (s'.mods m).isSome then (none, s') else load env (imp env fuel) m s'
        | r => r

/-- How deep imports can be nested: no deeper than there are modules. -/
def depth : Nat := 24

/-- A program imports modules of the package, one after the other, catching whatever an
import raises. -/
def imports (env : Env) : List Mod → St → St
  | [], s => s
  | m :: r, s => imports env r (imp env depth m s).2

end ZS.Imp
