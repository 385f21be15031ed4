import Verif.Model.PyCode
import Verif.Model.Proxy
import Verif.Model.Management
import Verif.Model.Registry

/-!
# What the names in the package's Python source mean

The `Lang` in which the functions of `Verif/Source/*.lean` run.  Attributes and methods of
checkers, permission dictionaries, thread-local slots, proxies, interactions and participations
are those of the model's state.  A call of another function of the package means what the model
says about that function; each of them has its own source and its own theorem
(`Props/PySource.lean`), so that the models together satisfy every equation the source states.
-/

namespace ZS.PyC
open ZS
variable {A : Type}

/-- On whose behalf a function works on application objects.  `own`: probes for decisions of the
package's own, and calls of checker factories.  `user`: operations a user of a proxy asked
for.  `raw`: the same in the six comparison methods, where `==` and its like are operations on
the wrapped object and not comparisons of names. -/
inductive Role where
  | own | user | raw
  deriving DecidableEq, Repr

/-- What differs between the functions: the role, and the local variable `self` of the calling
frame (`None` when there is none). -/
structure Opts where
  role : Role
  caller : PV

/-- An operation on an application object. -/
def act (X : Ctx A) (r : Role) (op : RawOp) : M A Val :=
  match r with
  | .own => probe X op
  | _ => perform X op

/-- Values of the model among the results. -/
def val (x : M A Val) : M A PV := do
  let r ← x
  pure (.v r)

/-- `None` after a step. -/
def unit (x : M A Unit) : M A PV := do
  x
  pure (.v .none)

/-- A truth value of the model. -/
def truthOf (x : M A Bool) : M A PV := do
  let b ← x
  pure (.v (.bool b))

/-- Identity. -/
def same : PV → PV → Bool
  | .v a, .v b => decide (a = b)
  | .user a, .user b => decide (a = b)
  | .sym a, .sym b => decide (a = b)
  | _, _ => false

/-- Module-level names that stand for themselves: functions, classes, modules, tables.  The names of
checker.py, proxy.py, management.py, simplepolicies.py and decorator.py do not clash: `Proxy` is
the class in use and `ProxyPy` the class of proxy.py, both of which `Proxy(...)` of the model
creates. -/
def symbols : List Name :=
  ["thread_local", "_checkers", "_available_by_default", "Checker", "Proxy", "ProxyPy", "PyProxyBase",
   "CombinedChecker", "TracebackSupplement", "DEFINABLE_TYPES", "dict", "tuple", "IInterface", "sys", "functools",
   "isinstance", "_builtin_isinstance", "hasattr", "getattr", "setattr", "delattr", "type", "hash", "bool",
   "super", "selectChecker", "getChecker", "removeSecurityProxy", "getProxiedObject", "ProxyFactory", "NamesChecker",
   "_check_name", "_check_name_inplace", "_fmt_address", "queryInteraction", "getSecurityPolicy",
   "Unauthorized", "ForbiddenAttribute", "AttributeError", "TypeError", "ValueError", "KeyError",
   "DuplicationError", "NoInteraction", "ExistingInteraction", "NotImplementedError",
   "_default_checkers", "BasicTypes"]

/-- Reading a global name. -/
def lglob (n : Name) : M A PV :=
  if n = "_defaultPolicy" then do
    let s ← M.get
    pure (.policy s.policy)
  else if n = "CheckerPublic" then pure (.v publicV)
  else if n = "NoProxy" then pure (.v .noProxy)
  else if n = "_defaultChecker" then pure (.v defaultChecker)
  else if n = "_namedChecker" then pure (.v namedChecker)
  else if n = "NotImplemented" then pure (.v .notImpl)
  else if n = "_getChecker" then pure (.bound (.sym "_checkers") "get")
  else if n = "ParanoidSecurityPolicy" then pure (.policy .paranoid)
  else if n = "system_user" then pure (.user .system)
  else if n ∈ symbols then pure (.sym n)
  else stuck

/-- Assigning to a global name. -/
def lsetGlob (n : Name) (x : PV) : M A Unit :=
  if n = "_defaultPolicy" then
    match x with
    | .policy p => M.modify fun s => { s with policy := p }
    | _ => stuck
  else stuck

/-- A slot of `thread_local`; an unset one is an AttributeError. -/
def slot (n : Name) : Option Val → M A PV
  | some x => pure (.v x)
  | none => M.throw (.attributeError n)

/-- The attribute `get_permissions`. -/
def readDict (x : Val) : M A PV :=
  match checkerDicts x with
  | some (g, _) => pure (.dict g)
  | none => M.throw (.attributeError "get_permissions")

/-- The attribute `set_permissions`. -/
def writeDict (x : Val) : M A PV :=
  match checkerDicts x with
  | some (_, st) => pure (.dict st)
  | none => M.throw (.attributeError "set_permissions")

/-- `o.n` for a value of the model.  The dictionaries of a checker and the second checker of a
combined one are attributes; anything else is an operation on an application object. -/
def vgetattr (X : Ctx A) (r : Role) (x : Val) (n : Name) : M A PV :=
  if n = "get_permissions" then readDict x
  else if n = "set_permissions" then writeDict x
  else if n = "_checker2" then
    match x with
    | .combined _ _ _ c2 => pure (.v c2)
    | _ => stuck
  else if n = "participations" then
    match x with
    | .ix i => pure (.parts i)
    | _ => stuck
  else val (act X r (.getattr x n))

/-- `o.n`. -/
def lgetattr (X : Ctx A) (h : Opts) (o : PV) (n : Name) : M A PV :=
  match o with
  | .sym m =>
    if m = "thread_local" then do
      let s ← M.get
      if n = "interaction" then slot n (s.threads X.tid).interaction
      else if n = "previous_interaction" then slot n (s.threads X.tid).previous
      else stuck
    else if m = "PyProxyBase" then pure (.base n)
    else pure (.bound o n)
  | .bound _ _ => pure (.bound o n)
  | .v x => vgetattr X h.role x n
  | .base m => if n = "__name__" then pure (.v (.str 0 m)) else stuck
  | .part p => do
    let s ← M.get
    if n = "interaction" then pure (.v (s.parts p).interaction)
    else if n = "principal" then pure (.user (s.parts p).principal)
    else stuck
  | _ => stuck

/-- `o.n = x`. -/
def lsetattr (X : Ctx A) (o : PV) (n : Name) (x : PV) : M A Unit :=
  match o, x with
  | .sym m, .v x =>
    if m = "thread_local" then
      if n = "interaction" then setSlots X.tid fun sl => { sl with interaction := some x }
      else if n = "previous_interaction" then setSlots X.tid fun sl => { sl with previous := some x }
      else stuck
    else stuck
  | .v (.proxy id w c), .v x => do
    let _ ← setattrPy X id w c n x
    pure ()
  | .v (.ix i), .list [] =>
    if n = "participations" then
      M.modify fun s => { s with ixs := fun j => if j = i then { s.ixs i with participations := [] } else s.ixs j }
    else stuck
  | .part p, .v x =>
    if n = "interaction" then
      M.modify fun s => { s with parts := fun q => if q = p then { s.parts p with interaction := x } else s.parts q }
    else stuck
  | _, _ => stuck

/-- `del o.n`. -/
def ldelattr (X : Ctx A) (o : PV) (n : Name) : M A Unit :=
  match o with
  | .sym m =>
    if m = "thread_local" then do
      let s ← M.get
      if n = "interaction" then
        if (s.threads X.tid).interaction.isSome then setSlots X.tid fun sl => { sl with interaction := none }
        else M.throw (.attributeError n)
      else if n = "previous_interaction" then
        if (s.threads X.tid).previous.isSome then setSlots X.tid fun sl => { sl with previous := none }
        else M.throw (.attributeError n)
      else stuck
    else stuck
  | _ => stuck

/-- The value of a key in a dictionary, or a default. -/
def orElse (r : Option Val) (d : Val) : Val := r.getD d

/-- The text of a permission, name or format argument. -/
def textOf : PV → M A String
  | .v x => asName x
  | _ => stuck

/-- The characters `lo` to `len - hi` of a name, as in `name[3:-2]`. -/
def cut (t : String) (lo hi : Nat) : String :=
  String.ofList ((t.toList.drop lo).take (t.toList.length - lo - hi))

/-- `x[i]`. -/
def lgetitem (x i : PV) : M A PV :=
  match x, i with
  | .v (.str _ t), .slice (.v (.int lo)) (.v (.int hi)) =>
    pure (.v (.str 0 (cut t lo.toNat (-hi).toNat)))
  | _, _ => stuck

/-- `o[k] = x`. -/
def lsetitem (o k x : PV) : M A Unit :=
  match o, k, x with
  | .dict d, .v (.str _ n), .v x =>
    M.modify fun s => { s with dicts := fun j => if j = d then (s.dicts d).set n x else s.dicts j }
  | .sym m, .v t, .v x =>
    match definable t with
    | some k => if m = "_checkers" then M.modify fun s => { s with reg := s.reg.set k x } else stuck
    | none => stuck
  | _, _, _ => stuck

/-- `del o[k]`. -/
def ldelitem (o k : PV) : M A Unit :=
  match o, k with
  | .sym m, .v t =>
    match definable t with
    | some k =>
      if m = "_checkers" then do
        let s ← M.get
        if s.reg.mem k then M.modify fun s => { s with reg := s.reg.del k } else M.throw .keyError
      else stuck
    | none => stuck
  | _, _ => stuck

/-- `_checkers.get(t)` and `_checkers.get(t, d)`. -/
def regGet (t d : Val) : M A PV := do
  let s ← M.get
  match definable t with
  | some k => pure (.v ((s.reg.get? k).getD d))
  | none => stuck

/-- Methods of `super()` in a method of a proxy: reading and writing the two slots, and
`PyProxyBase.__getattribute__` for any other name. -/
def supMethod (X : Ctx A) (id : Nat) (w c : Val) (m : Name) (args : List PV) : M A PV :=
  match args with
  | [.v (.str _ n)] =>
    if m = "__getattribute__" then do
      let s ← M.get
      if n = "_wrapped" then pure (.v (proxyWrapped X s id w))
      else if n = "_checker" then pure (.v (proxyChecker X s id c))
      else val (perform X (.baseGetattr (proxyWrapped X s id w) n))
    else stuck
  | [.v (.str _ n), .v x] =>
    if m = "__setattr__" then
      if n = "_wrapped" then do
        M.modify fun s => { s with ovW := fun k => if k = id then some x else s.ovW k }
        pure (.v .none)
      else if n = "_checker" then do
        M.modify fun s => { s with ovC := fun k => if k = id then some x else s.ovC k }
        pure (.v .none)
      else stuck
    else stuck
  | _ => stuck

/-- The checking methods by name. -/
def kindOf (m : Name) : Option CheckKind :=
  if m = "check" then some .check
  else if m = "check_getattr" then some .getattr
  else if m = "check_setattr" then some .setattr
  else none

/-- Methods of values of the model: checkers, interactions, strings. -/
def vmethod (X : Ctx A) (x : Val) (m : Name) (args : List PV) : M A PV :=
  match kindOf m with
  | some k =>
    match args with
    | [.v o, .v (.str _ n)] => unit (chkCheck X (hasattrX X) k x o n)
    | _ => stuck
  | none =>
    if m = "checkPermission" then
      match args with
      | [.v p, .v o] => val (ixCheckPermission X x p o)
      | _ => stuck
    else if m = "proxy" then
      match args with
      | [.v y] => val (chkProxy X x y)
      | _ => stuck
    else if m = "add" then
      match args, x with
      | [.part p], .ix i => unit (ixAdd i p)
      | _, _ => stuck
    else if m = "format" then
      match args, x with
      | [a, b, c], .str _ f =>
        if f = "<security proxied {}.{} instance at {}>" then do
          let a ← textOf a
          let b ← textOf b
          let c ← textOf c
          pure (.v (.str 0 ("<security proxied " ++ a ++ "." ++ b ++ " instance at " ++ c ++ ">")))
        else stuck
      | _, _ => stuck
    else stuck

/-- Keyword arguments that are values of the model. -/
def kwVals : List (Name × PV) → Option (PyDict Name Val)
  | [] => some []
  | (n, .v x) :: r => (kwVals r).map ((n, x) :: ·)
  | _ :: _ => none

/-- `o.m(*args, **kws)`. -/
def lmethod (X : Ctx A) (h : Opts) (o : PV) (m : Name) (args : List PV) (_ : List (Name × PV)) : M A PV :=
  match o with
  | .v x => vmethod X x m args
  | .dict d =>
    if m = "get" then
      match args with
      | [.v (.str _ n)] => do
        let s ← M.get
        pure (.v (orElse ((s.dicts d).get? n) .none))
      | [.v (.str _ n), .v x] => do
        let s ← M.get
        pure (.v (orElse ((s.dicts d).get? n) x))
      | _ => stuck
    else if m = "update" then
      match args with
      | [.kwds l] =>
        match kwVals l with
        | some e => do
          M.modify fun s => { s with dicts := fun j => if j = d then (s.dicts d).update e else s.dicts j }
          pure (.v .none)
        | none => stuck
      | _ => stuck
    else stuck
  | .sup (.v (.proxy id w c)) => supMethod X id w c m args
  | .parts i =>
    match args with
    | [.part p] =>
      if m = "append" then unit (M.modify fun s => { s with ixs := fun j => if j = i then { s.ixs i with participations := (s.ixs i).participations ++ [p] } else s.ixs j })
      else if m = "remove" then do
        let s ← M.get
        if p ∉ (s.ixs i).participations then M.throw .valueError
        else unit (M.modify fun s => { s with ixs := fun j => if j = i then { s.ixs i with participations := (s.ixs i).participations.erase p } else s.ixs j })
      else stuck
    | _ => stuck
  | .sym c =>
    if c = "Checker" then
      match args with
      | [.v x, .v o, .v (.str _ n)] =>
        match checkerDicts x with
        | some (g, st) =>
          if m = "check" then unit (plainCheck X (hasattrX X) g o n)
          else if m = "check_setattr" then unit (plainSetattr X st o n)
          else stuck
        | none => stuck
      | _ => stuck
    else if c = "_checkers" then
      match args with
      | [.v t] => if m = "get" then regGet t .none else stuck
      | [.v t, .v d] => if m = "get" then regGet t d else stuck
      | _ => stuck
    else if c = "sys" then if m = "_getframe" then pure (.sym "frame") else stuck
    else if c = "functools" then
      match args with
      | [f, _] => if m = "update_wrapper" then pure f else stuck
      | _ => stuck
    else stuck
  | .bound (.sym f) a =>
    if f = "frame" ∧ a = "f_locals" ∧ m = "get" then pure h.caller else stuck
  | _ => stuck

/-- Which operation a method of `PyProxyBase` carries out on the wrapped object, and what it makes of
the result.  In the operators with swapped operands the wrapped object is on the right. -/
def baseOp (m : Name) (args : List Val) (w : Val) : RawOp :=
  match m, args with
  | "__radd__", [o] => .binop "__add__" o w
  | "__rsub__", [o] => .binop "__sub__" o w
  | "__rmul__", [o] => .binop "__mul__" o w
  | "__rmod__", [o] => .binop "__mod__" o w
  | "__rdivmod__", [o] => .binop "__divmod__" o w
  | "__rlshift__", [o] => .binop "__lshift__" o w
  | "__rrshift__", [o] => .binop "__rshift__" o w
  | "__rand__", [o] => .binop "__and__" o w
  | "__rxor__", [o] => .binop "__xor__" o w
  | "__ror__", [o] => .binop "__or__" o w
  | "__rfloordiv__", [o] => .binop "__floordiv__" o w
  | "__rtruediv__", [o] => .binop "__truediv__" o w
  | "__pow__", [y, z] => .pow w y z
  | "__rpow__", [x, z] => .pow x w z
  | m, args =>
    if m ∈ ["__add__", "__sub__", "__mul__", "__mod__", "__divmod__", "__lshift__", "__rshift__", "__and__",
        "__xor__", "__or__", "__floordiv__", "__truediv__"] then
      match args with
      | [o] => .binop m w o
      | _ => .special m w args
    else .special m w args

/-- What a method of `PyProxyBase` returns: the result of the operation, nothing for the two item
assignments, a truth value for `__contains__`, a length for `__len__`. -/
def baseResult (X : Ctx A) (m : Name) (r : Val) : M A Val :=
  if m = "__setitem__" ∨ m = "__delitem__" then pure .none
  else if m = "__contains__" then pure (.bool (truthy X.W r))
  else if m = "__len__" then asLen r
  else pure r

/-- Values of the model in an argument list. -/
def vals : List PV → Option (List Val)
  | [] => some []
  | .v x :: r => (vals r).map (x :: ·)
  | _ :: _ => none

/-- Participations in an argument list. -/
def partsOf : List PV → Option (List Nat)
  | [] => some []
  | .part p :: r => (partsOf r).map (p :: ·)
  | _ :: _ => none

/-- Calling a method of `PyProxyBase` on a proxy: the wrapped object is read and the operation
carried out on it. -/
def callBase (X : Ctx A) (m : Name) (self : Val) (args : List Val) : M A PV :=
  match self with
  | .proxy id w _ => do
    let s ← M.get
    let r ← perform X (baseOp m args (proxyWrapped X s id w))
    val (baseResult X m r)
  | _ => stuck

/-- The same for arguments that need not be values of the model. -/
def callBaseWith (X : Ctx A) (m : Name) (self : Val) (args : Option (List Val)) : M A PV :=
  match args with
  | some l => callBase X m self l
  | none => stuck

/-- `_check_name(meth)(self)` for a method without arguments. -/
def callChecked (X : Ctx A) (env : List (Name × PV)) (args : List PV) : M A PV :=
  match Env.get? env "meth", args with
  | some (.base m), [.v (.proxy id w c)] => val (checkNamePy X id w c m (fun w => .special m w []))
  | _, _ => stuck

/-- Instances of the exception classes. -/
def makeExn (c : Name) (args : List PV) : Option Exn :=
  if c = "Unauthorized" then
    match args with
    | [.v o, .v (.str _ n), .v p] => some (.unauthorized o n p)
    | _ => none
  else if c = "ForbiddenAttribute" then
    match args with
    | [.v (.str _ n), .v o] => some (.forbidden n o)
    | _ => none
  else if c = "AttributeError" then
    match args with
    | [.v (.str _ n)] => some (.attributeError n)
    | [] => some (.attributeError "")
    | _ => none
  else if c = "TypeError" then some .typeError
  else if c = "ValueError" then some .valueError
  else if c = "ExistingInteraction" then some .existingInteraction
  else if c = "NoInteraction" then some .noInteraction
  else if c = "NotImplementedError" then some .notImplementedError
  else if c = "DuplicationError" then
    match args with
    | [.v (.str _ n)] => some (.duplicationName n)
    | [.v x] => some (.duplication x)
    | _ => none
  else none

/-- `isinstance(x, c)` for the classes the source asks about. -/
def isInstance (x : PV) (c : Name) : Option Bool :=
  match x with
  | .v x =>
    if c = "Proxy" ∨ c = "ProxyPy" then some x.isProxy
    else if c = "Checker" then some x.isChecker
    else if c = "DEFINABLE_TYPES" then some (definable x).isSome
    else if c = "dict" then some false
    else none
  | .dict _ => if c = "dict" then some true else none
  | _ => none

/-- Calling a builtin, a class or a function of the package by its name. -/
def callSym (X : Ctx A) (h : Opts) (f : Name) (args : List PV) : M A PV :=
  match makeExn f args with
  | some e => pure (.exn e)
  | none =>
    if f = "isinstance" ∨ f = "_builtin_isinstance" then
      match args with
      | [x, .sym c] =>
        match isInstance x c with
        | some b => pure (.v (.bool b))
        | none => stuck
      | _ => stuck
    else if f = "getattr" then
      match args with
      | [.v o, .v (.str _ n), .v .none] =>
        if n = "__Security_checker__" then val (orNone (getSC X o))
        else val (orNone (act X h.role (.getattr o n)))
      | [.sym o, .v (.str _ n), .v .none] =>
        if o = "thread_local" ∧ n = "interaction" then do
          let s ← M.get
          pure (.v ((s.threads X.tid).interaction.getD .none))
        else stuck
      | [.v o, .v (.str _ n)] => val (act X h.role (.getattr o n))
      | _ => stuck
    else if f = "hasattr" then
      match args with
      | [.v o, .v (.str _ n)] => truthOf (hasattrX X o n)
      | _ => stuck
    else if f = "setattr" then
      match args with
      | [.v o, .v (.str _ n), .v x] => do
        let _ ← act X h.role (.setattr o n x)
        pure (.v .none)
      | _ => stuck
    else if f = "delattr" then
      match args with
      | [.v o, .v (.str _ n)] => do
        let _ ← act X h.role (.delattr o n)
        pure (.v .none)
      | _ => stuck
    else if f = "hash" then
      match args with
      | [.v o] => val (do
          let r ← act X h.role (.special "__hash__" o [])
          asInt r)
      | _ => stuck
    else if f = "bool" then
      match args with
      | [.v o] => val (do
          let r ← act X h.role (.special "__bool__" o [])
          pure (.bool (truthy X.W r)))
      | _ => stuck
    else if f = "type" then
      match args with
      | [.v o] => pure (.v (.type (typeOf X.W o)))
      | _ => stuck
    else if f = "super" then
      match args with
      | [_, o] => pure (.sup o)
      | _ => stuck
    else if f = "selectChecker" then
      match args with
      | [.v o] => val (selectChecker X o)
      | _ => stuck
    else if f = "getChecker" then
      match args with
      | [.v o] => val (getChecker X o)
      | _ => stuck
    else if f = "ProxyFactory" then
      match args with
      | [.v o] => val (proxyFactory X o .none)
      | _ => stuck
    else if f = "Proxy" ∨ f = "ProxyPy" then
      match args with
      | [.v o, .v c] => val (newProxy o c)
      | _ => stuck
    else if f = "Checker" then
      match args with
      | [.dict g] => val (do
          let st ← newDict []
          newChecker g st)
      | _ => stuck
    else if f = "_check_name" then
      match args with
      | [.base m] => pure (.clos "_check_name._wrapper" [("name", .v (.str 0 m)), ("wrap_result", .v (.bool true)), ("meth", .base m)])
      | _ => stuck
    else if f = "_fmt_address" then
      match args with
      | [.v o] => pure (.v (.str 0 (X.W.addr o)))
      | _ => stuck
    else if f = "queryInteraction" then val (queryInteraction X)
    else if f = "getSecurityPolicy" then do
      let p ← getSecurityPolicy
      pure (.policy p)
    else if f = "removeSecurityProxy" then
      match args with
      | [.v o] => do
        let s ← M.get
        pure (.v (removeProxy X s o))
      | _ => stuck
    else if f = "CombinedChecker" then
      match args with
      | [.v a, .v b] => val (newCombined a b)
      | _ => stuck
    else stuck

/-- Calling a security policy with participations. -/
def callPolicyWith (X : Ctx A) (p : Policy) (ps : Option (List Nat)) : M A PV :=
  match ps with
  | some ps => val (callPolicy X p ps)
  | none => stuck

/-- `f(*args, **kws)`. -/
def lcall (X : Ctx A) (h : Opts) (f : PV) (args : List PV) (_ : List (Name × PV)) : M A PV :=
  match f with
  | .sym f => callSym X h f args
  | .bound (.sym c) m =>
    if c = "_checkers" ∧ m = "get" then
      match args with
      | [.v t, .v d] => regGet t d
      | _ => stuck
    else stuck
  | .policy p => callPolicyWith X p (partsOf args)
  | .base m =>
    match args with
    | .v self :: rest => callBaseWith X m self (vals rest)
    | _ => stuck
  | .clos f env => if f = "_check_name._wrapper" then callChecked X env args else stuck
  | .v f =>
    match vals args with
    | some l =>
      match h.role, l with
      | .own, [o] => val (callFactory X f o)
      | _, l => val (act X h.role (.call f l))
    | none => stuck
  | _ => stuck

/-- `n in l` for a name and a tuple of names. -/
def amongNames (n : Name) (l : List PV) : Bool :=
  l.any fun z => match z with
    | .v (.str _ t) => decide (n = t)
    | _ => false

/-- `x in y`. -/
def contains (x y : PV) : M A Bool :=
  match y with
  | .tuple l =>
    match x with
    | .v (.str _ n) => pure (amongNames n l)
    | _ => stuck
  | .sym c =>
    if c = "_available_by_default" then
      match x with
      | .v (.str _ n) => do
        let s ← M.get
        pure (decide (n ∈ s.avail))
      | _ => stuck
    else if c = "_checkers" then
      match x with
      | .v t =>
        match definable t with
        | some k => do
          let s ← M.get
          pure (s.reg.mem k)
        | none => stuck
      | _ => stuck
    else stuck
  | _ => stuck

/-- `x == y` for two names. -/
def sameName (x y : PV) : M A Bool :=
  match x, y with
  | .v (.str _ a), .v (.str _ b) => pure (decide (a = b))
  | _, _ => stuck

/-- A comparison operator applied to the wrapped object. -/
def rawCompare (X : Ctx A) (op : CmpName) (x y : PV) : M A PV :=
  match x, y with
  | .v x, .v y => val (perform X (.compare op.op x y))
  | _, _ => stuck

/-- Comparison operators other than identity. -/
def lcompare (X : Ctx A) (h : Opts) (op : CmpOp) (x y : PV) : M A PV :=
  match op with
  | .isIn => truthOf (contains x y)
  | .notIn => truthOf (do
      let b ← contains x y
      pure (!b))
  | .eq => if h.role = .raw then rawCompare X .eq x y else truthOf (sameName x y)
  | .ne =>
    if h.role = .raw then rawCompare X .ne x y
    else truthOf (do
      let b ← sameName x y
      pure (!b))
  | .lt => rawCompare X .lt x y
  | .le => rawCompare X .le x y
  | .gt => rawCompare X .gt x y
  | .ge => rawCompare X .ge x y
  | _ => stuck

/-- `format % x` with one `%s` or `%r`.  The text of an error message does not matter. -/
def lbin (op : String) (x y : PV) : M A PV :=
  if op = "%" then
    match x, y with
    | .v (.str _ f), .v (.str _ t) => if f = "__%s__" then pure (.v (.str 0 ("__" ++ t ++ "__"))) else pure (.v (.str 0 f))
    | .v (.str _ f), _ => pure (.v (.str 0 f))
    | _, _ => stuck
  else stuck

/-- `bool(x)` in a condition. -/
def ltruth (X : Ctx A) (x : PV) : M A Bool :=
  match x with
  | .v x => pure (truthy X.W x)
  | .dict d => do
    let s ← M.get
    pure (!(s.dicts d).isEmpty)
  | .list l => pure (!l.isEmpty)
  | _ => stuck

/-- The items of something iterable. -/
def liter (x : PV) : M A (List PV) :=
  match x with
  | .tuple l => pure l
  | .list l => pure l
  | .parts i => do
    let s ← M.get
    pure ((s.ixs i).participations.map fun p => .part p)
  | _ => stuck

/-- `except c:`. -/
def lcatches (c : PV) (e : Exn) : Bool :=
  match c with
  | .sym c =>
    if c = "Unauthorized" then e.isUnauthorized
    else if c = "ForbiddenAttribute" then e.isForbidden
    else if c = "AttributeError" then e.isAttr
    else if c = "TypeError" then decide (e = .typeError)
    else if c = "ValueError" then e.isValueError
    else if c = "KeyError" then decide (e = .keyError)
    else false
  | _ => false

/-- What `raise x` raises: an instance, or an instance made from a class without arguments. -/
def ltoExn (x : PV) : Option Exn :=
  match x with
  | .exn e => some e
  | .sym c => makeExn c []
  | _ => none

/-- `{}`; no other dictionary displays occur in the functions. -/
def lnewDict (l : List PV) : M A PV :=
  match l with
  | [] => do
    let d ← newDict []
    pure (.dict d)
  | _ => stuck

/-- The items of a tuple that is assigned to several targets. -/
def lunpack (x : PV) : Option (List PV) :=
  match x with
  | .tuple l => some l
  | _ => none

/-- The language the package's functions are written in. -/
def lang (X : Ctx A) (h : Opts) : Lang A where
  glob := lglob
  setGlob := lsetGlob
  getattr := lgetattr X h
  setattr := lsetattr X
  delattr := ldelattr X
  getitem := lgetitem
  setitem := lsetitem
  delitem := ldelitem
  method := lmethod X h
  call := lcall X h
  same := same
  compare := lcompare X h
  bin := lbin
  truth := ltruth X
  fmt := fun _ x => pure x
  join := fun _ => stuck
  newDict := lnewDict
  iter := liter
  unpack := lunpack
  catches := lcatches
  toExn := ltoExn
  fuel := X.fuel

/-- The package's own decisions. -/
def own : Opts := ⟨.own, .v .none⟩

/-- Operations for the user of a proxy, called from a frame without `self`. -/
def user : Opts := ⟨.user, .v .none⟩

end ZS.PyC
