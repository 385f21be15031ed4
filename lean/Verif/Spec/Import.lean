import Verif.Model.Import

/-!
Vocabulary for importing the package: what is to be read off `sys.modules` and off the
C module's static variables after a program has imported modules.
-/

namespace ZS.Imp.Spec

/-- The module is in `sys.modules`. -/
def Imported (s : St) (m : Mod) : Prop := ∃ e, s.mods m = some e

/-- What `sys.modules[m].n` is. -/
def nameIn (s : St) (m : Mod) (n : Name) : Option Val :=
  (s.mods m).bind fun e => e.ns.look n

/-- The C static variable `n` of `_zope_security_checker.c`. -/
def cVar (s : St) (n : Name) : Option Val := (s.stat .cchecker).look n

/-- The static variable `x` of the C module `m` holds a string with the text `n`. -/
def holdsText (s : St) (m : Mod) (x n : Name) : Prop :=
  ∃ r, (s.stat m).look x = some (.made m n r)

/-- The variables that the functions of `_proxy.c` read, with the text each has to have.  For
the methods of the checker: 141, 169, 182, 354, 367, 378; for the attributes of a class: 389-400;
for the names checked: `UNOP(NAME)` reads `str_op_NAME` (246-248, 552-564), `BINOP(NAME)`
`str_op_NAME` and `str_op_rNAME` (250-252, 500-578), `INPLACE(NAME)` `str_op_iNAME` (254-256,
566-580); the others 341, 354, 427-465, 513-532, 589, 644-674. -/
def proxyTexts : List (Name × Name) :=
  [("str_check", "check"), ("str_check_getattr", "check_getattr"),
   ("str_check_setattr", "check_setattr"), ("str_proxy", "proxy"),
   ("__class__str", "__class__"), ("__name__str", "__name__"), ("__module__str", "__module__")] ++
  (["__iter__", "__next__", "__str__", "__repr__", "__call__", "__pow__", "__rpow__", "__3pow__",
    "__len__", "__contains__", "__getitem__", "__delitem__", "__setitem__"].map
      fun n => ("str_" ++ n, n)) ++
  (["add", "sub", "mul", "mod", "divmod", "lshift", "rshift", "and", "xor", "or", "floordiv",
    "truediv"].flatMap fun n =>
      [("str_op_" ++ n, "__" ++ n ++ "__"), ("str_op_r" ++ n, "__r" ++ n ++ "__")]) ++
  (["neg", "pos", "abs", "invert", "int", "float"].map
      fun n => ("str_op_" ++ n, "__" ++ n ++ "__")) ++
  (["add", "sub", "mul", "mod", "pow", "lshift", "rshift", "and", "xor", "or", "floordiv",
    "truediv"].map fun n => ("str_op_i" ++ n, "__i" ++ n ++ "__"))

/-- The same for `_zope_security_checker.c:108,111,275`. -/
def checkerTexts : List (Name × Name) :=
  [("str_interaction", "interaction"), ("str_checkPermission", "checkPermission"),
   ("str___Security_checker__", "__Security_checker__")]

/-- The other variables that the functions of `_zope_security_checker.c` read (108, 128, 154-193,
237-250, 268, 310, 507-544). -/
def checkerVars : List Name :=
  ["thread_local", "CheckerPublic", "ForbiddenAttribute", "Unauthorized", "Proxy",
   "_available_by_default", "_checkers", "_defaultChecker", "NoProxy"]

/-- What `checker.Checker` is to be, with `ZOPE_WATCH_CHECKERS` set or not and with the C
implementation in use or not (checker.py:294, 518, 692-693). -/
def IsCheckerClass (watch c : Bool) (v : Val) : Prop :=
  if watch then ∃ r, v = .made .checker "WatchingChecker" r
  else if c then v = .static .cchecker "Checker"
  else ∃ r, v = .made .checker "CheckerPy" r

/-- The module whose code an object comes from (for the bound method `d.get`: `d`'s). -/
def origin : Val → Option Mod
  | .made m _ _ => some m
  | .static m _ => some m
  | .get d => origin d
  | .module _ => none
  | .flag _ => none

/-- What `checker.py:493-528` replaces by the C module's objects, and what is built from it:
the classes' base (532, 674), the method `_checkers.get` (528), and the entry for proxies in the
default checkers (877). -/
def switched : List Name :=
  ["NoProxy", "_checkers", "_defaultChecker", "_available_by_default", "selectChecker",
   "_getChecker", "CombinedChecker.base", "WatchingChecker.base", "_default_checkers[Proxy]"]

/-- What `proxy.py:360-369` replaces. -/
def switchedProxy : List Name := ["Proxy", "getChecker", "getObject", "removeSecurityProxy"]

/-- Objects that `_zope_security_checker.c` keeps in static variables and `checker.py` under a
global name, apart from `CheckerPublic`. -/
def shared : List Name :=
  ["thread_local", "ForbiddenAttribute", "Unauthorized", "NoProxy", "_checkers",
   "_defaultChecker", "_available_by_default"]

/-- `u.n` is to be the object `t.x`. -/
structure Link where
  u : Mod
  n : Name
  t : Mod
  x : Name

/-- Objects the modules compare with `is`, or change, and so must share. -/
def links : List Link :=
  -- the public permission: management.py:152, simplepolicies.py:61, permission.py:50,
  -- protectclass.py:34,50, metaconfigure.py:193, checker.py:366,385
  [⟨.management, "CheckerPublic", .checker, "CheckerPublic"⟩,
   ⟨.simplepolicies, "CheckerPublic", .checker, "CheckerPublic"⟩,
   ⟨.permission, "CheckerPublic", .checker, "CheckerPublic"⟩,
   ⟨.protectclass, "CheckerPublic", .checker, "CheckerPublic"⟩,
   ⟨.metaconfigure, "CheckerPublic", .checker, "CheckerPublic"⟩,
   ⟨.checker, "NamesChecker.permission_id", .checker, "CheckerPublic"⟩,
   ⟨.checker, "InterfaceChecker.permission_id", .checker, "CheckerPublic"⟩,
   -- its identifier
   ⟨.permission, "zope_Public", .interfaces, "PUBLIC_PERMISSION_NAME"⟩,
   ⟨.protectclass, "zope_Public", .interfaces, "PUBLIC_PERMISSION_NAME"⟩,
   ⟨.zcml, "zope_Public", .interfaces, "PUBLIC_PERMISSION_NAME"⟩,
   ⟨.metaconfigure, "PublicPermission", .interfaces, "PUBLIC_PERMISSION_NAME"⟩,
   ⟨.testing, "PUBLIC_PERMISSION_NAME", .interfaces, "PUBLIC_PERMISSION_NAME"⟩,
   -- the holder of the current interaction: _definitions.py:22-24
   ⟨.checker, "thread_local", .defs, "thread_local"⟩,
   ⟨.management, "thread_local", .defs, "thread_local"⟩,
   -- the user whom everything is permitted to: simplepolicies.py:66
   ⟨.simplepolicies, "system_user", .defs, "system_user"⟩,
   ⟨.management, "system_user", .defs, "system_user"⟩,
   -- the exceptions
   ⟨.checker, "ForbiddenAttribute", .interfaces, "ForbiddenAttribute"⟩,
   ⟨.checker, "Unauthorized", .interfaces, "Unauthorized"⟩,
   -- the policy in force until one is set: management.py:45
   ⟨.management, "_defaultPolicy", .simplepolicies, "ParanoidSecurityPolicy"⟩,
   -- functions
   ⟨.protectclass, "defineChecker", .checker, "defineChecker"⟩,
   ⟨.metaconfigure, "defineChecker", .checker, "defineChecker"⟩,
   ⟨.adapter, "ProxyFactory", .checker, "ProxyFactory"⟩,
   ⟨.pkg, "canAccess", .checker, "canAccess"⟩,
   ⟨.pkg, "canWrite", .checker, "canWrite"⟩,
   ⟨.pkg, "checkPermission", .management, "checkPermission"⟩]

/-- The module is written in Python or was compiled. -/
def Available (env : Env) (m : Mod) : Prop :=
  (m = .cproxy → env.proxyBuilt = true) ∧ (m = .cchecker → env.checkerBuilt = true)

end ZS.Imp.Spec
