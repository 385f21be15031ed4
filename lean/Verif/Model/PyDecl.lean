import Verif.Model.PyHost
import Verif.Model.Meta

/-!
# What the names in the source of the declarations mean

The functions of protectclass.py, `metaconfigure.protectModule`, the methods of `BasicTypes`,
`checker._clear` and the constructors `NamesChecker`, `InterfaceChecker` and `MultiChecker` use more
of Python than the functions of `Model/PyHost.lean`: they go through dictionaries and interfaces and
write to the tables of checkers.  `declLang` adds this to `lang X own`.
-/

namespace ZS.PyC
open ZS
variable {A : Type}

/-- Functions of checker.py the declarations call. -/
def declSymbols : List Name := ["getCheckerForInstancesOf", "moduleChecker", "defineChecker"]

/-- Reading a global name: `zope_Public` and `PublicPermission` are both `PUBLIC_PERMISSION_NAME`
(protectclass.py:21, metaconfigure.py:32). -/
def dglob (n : Name) : M A PV :=
  if n = "zope_Public" then pure (.v publicPermission)
  else if n = "PublicPermission" then pure (.v publicPermission)
  else if n ∈ declSymbols then pure (.sym n)
  else lglob n

/-- `_checkers.get(t)`.  Nothing but types and modules is a key of `_checkers`. -/
def lookUp (t : Val) : M A PV := do
  let s ← M.get
  match definable t with
  | some k => pure (.v (getCheckerFor s k))
  | none => pure (.v .none)

/-- The names in a list of names. -/
def namesOf : List PV → Option (List Name)
  | [] => some []
  | .v (.str _ n) :: r => (namesOf r).map (n :: ·)
  | _ :: _ => none

/-- `NamesChecker(names, permission, **kw)`. -/
def callNames (ns : Option (List Name)) (p : Val) (kw : Option (PyDict Name Val)) : M A PV :=
  match ns, kw with
  | some ns, some kw => val (namesChecker ns p kw)
  | _, _ => stuck

/-- `isinstance(x, tuple)`. -/
def isTuple : PV → Bool
  | .tuple _ => true
  | _ => false

/-- Calling a function of checker.py, or the class of checkers. -/
def dcall (X : Ctx A) (f : PV) (args : List PV) (kws : List (Name × PV)) : M A PV :=
  match f, args with
  | .sym f, [a] =>
    if f = "getCheckerForInstancesOf" ∨ f = "moduleChecker" then
      match a with
      | .v t => lookUp t
      | _ => stuck
    else lcall X own (.sym f) [a] kws
  | .sym f, [a, b] =>
    if f = "defineChecker" then
      match a, b with
      | .v t, .v c => unit (defineChecker t c)
      | _, _ => stuck
    else if f = "Checker" then
      match a, b with
      | .dict g, .dict st => val (newChecker g st)
      | _, _ => stuck
    else if f = "NamesChecker" then
      match a, b with
      | .list l, .v p => callNames (namesOf l) p (kwVals kws)
      | _, _ => stuck
    else if f = "isinstance" then
      match b with
      | .sym "tuple" => pure (.v (.bool (isTuple a)))
      | b => lcall X own (.sym f) [a, b] kws
    else lcall X own (.sym f) [a, b] kws
  | f, args => lcall X own f args kws

/-- The tables that can be poured into `_checkers`. -/
def tableOf (s : St A) : PV → Option (PyDict Key Val)
  | .keydict d => some d
  | .sym c => if c = "_default_checkers" then some s.defaults else if c = "BasicTypes" then some s.basic else none
  | _ => none

/-- `_checkers.update(t)`. -/
def regUpdate (t : PV) : M A PV := do
  let s ← M.get
  match tableOf s t with
  | some d => unit (M.modify fun s => { s with reg := s.reg.update d })
  | none => stuck

/-- `dict.m(BasicTypes, ...)`: the methods of `dict` on the subclass. -/
def dictMethod (m : Name) (args : List PV) : M A PV :=
  match args with
  | [.sym _, .v t, .v x] =>
    match definable t with
    | some k => if m = "__setitem__" then unit (M.modify fun s => { s with basic := s.basic.set k x }) else stuck
    | none => stuck
  | [.sym _, .v t] =>
    match definable t with
    | some k =>
      if m = "__delitem__" then do
        let s ← M.get
        if s.basic.mem k then unit (M.modify fun s => { s with basic := s.basic.del k }) else M.throw .keyError
      else stuck
    | none => stuck
  | [.sym _, .keydict d] =>
    if m = "update" then unit (M.modify fun s => { s with basic := s.basic.update d }) else stuck
  | _ => stuck

/-- The items of a dictionary, as tuples. -/
def itemsOf (l : List (Name × PV)) : List PV := l.map fun p => .tuple [.v (.str 0 p.1), p.2]

/-- A name as a value. -/
def nameV (n : Name) : PV := .v (.str 0 n)

/-- `o.m(*args, **kws)`. -/
def dmethod (X : Ctx A) (o : PV) (m : Name) (args : List PV) (kws : List (Name × PV)) : M A PV :=
  match o with
  | .sym c =>
    if c = "dict" then dictMethod m args
    else if c = "_checkers" ∧ m = "clear" then unit (M.modify fun s => { s with reg := [] })
    else if c = "_checkers" ∧ m = "update" then
      match args with
      | [t] => regUpdate t
      | _ => stuck
    else if c = "IInterface" then
      match args with
      | [.iface _] => if m = "providedBy" then pure (.v (.bool true)) else stuck
      | [_] => if m = "providedBy" then pure (.v (.bool false)) else stuck
      | _ => stuck
    else lmethod X own o m args kws
  | .iface i => if m = "names" then pure (.list (i.keys.map nameV)) else stuck
  | .kwds l => if m = "items" then pure (.list (itemsOf l)) else stuck
  | o => lmethod X own o m args kws

/-- `x[i]` for a dictionary. -/
def dgetitem (x i : PV) : M A PV :=
  match x, i with
  | .dict d, .v (.str _ n) => do
    let s ← M.get
    match (s.dicts d).get? n with
    | some p => pure (.v p)
    | none => M.throw .keyError
  | _, _ => stuck

/-- The keys of a dictionary. -/
def diter (x : PV) : M A (List PV) :=
  match x with
  | .dict d => do
    let s ← M.get
    pure ((s.dicts d).keys.map nameV)
  | x => liter x

/-- `p == "..."`: a permission that is no string equals no string. -/
def isText (p : Val) (t : String) : Bool :=
  match p with
  | .str _ u => decide (u = t)
  | _ => false

/-- `==` with a string. -/
def dcompare (X : Ctx A) (op : CmpOp) (x y : PV) : M A PV :=
  match op, x, y with
  | .eq, .v p, .v (.str _ t) => pure (.v (.bool (isText p t)))
  | op, x, y => lcompare X own op x y

/-- The language the declarations are written in. -/
def declLang (X : Ctx A) : Lang A :=
  { lang X own with
    glob := dglob
    call := dcall X
    method := dmethod X
    getitem := dgetitem
    iter := diter
    compare := dcompare X }

end ZS.PyC
