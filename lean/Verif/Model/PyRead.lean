import Verif.Model.PyDecl
import Verif.Source.Checker
import Verif.Source.Metaconfigure

/-!
# What the names in the source of the directives mean

`metaLang` is the language metaconfigure.py runs in while a configuration is read.  An action is
recorded with the keyword arguments `_context.action` is called with, whatever they are.  The methods of
the class `ClassDirective` and the functions `_names` and `dottedName` are run from their source, up to a
depth.

`objLang` is the language of the constructors of checkers: the object under construction is
`self`, with the attributes assigned so far.
-/

namespace ZS.PyC
open ZS

/-! ## Constructors -/

/-- The attributes of the object under construction. -/
abbrev Attrs := List (Name × PV)

/-- `self.n = x`. -/
def osetattr (o : PV) (n : Name) (x : PV) : M Attrs Unit :=
  match o with
  | .sym c => if c = "self" then M.modify fun s => { s with app := (n, x) :: s.app } else stuck
  | _ => stuck

/-- `C.m(self, ...)`: the method `Checker.__init__` is run from its source. -/
def omethod (X : Ctx Attrs) (o : PV) (m : Name) (args : List PV) (_ : List (Name × PV)) : M Attrs PV :=
  match o with
  | .sym c =>
    if c = "Checker" ∧ m = "__init__" then
      run { declLang X with setattr := osetattr } Src.Checker.CheckerPy.__init__ args
    else stuck
  | _ => stuck

/-- The language of the constructors. -/
def objLang (X : Ctx Attrs) : Lang Attrs := { declLang X with setattr := osetattr, method := omethod X }

/-! ## Directives -/

/-- The names of classes and interfaces, and the module a module directive is about. -/
structure Naming where
  clsModule : String → String
  clsName : String → String
  ifaceModule : Iface → String
  ifaceName : Iface → String
  module : Val

/-- The keyword arguments of `_context.action`. -/
abbrev Raw := List (Name × PV)

/-- What reading a configuration builds up: the attributes of the handler of the directive around, the
actions, and the dictionary each of the contexts around, innermost first, has as `permission_mapping`. -/
structure Reading where
  attrs : Env
  actions : List Raw
  maps : List (Option Nat) := []

/-- An action is recorded. -/
def emit (s : St Reading) (l : List Raw) : St Reading := { s with app := { s.app with actions := s.app.actions ++ l } }

/-- Names that stand for themselves. -/
def metaSymbols : List Name :=
  ["classImplements", "provideInterface", "protectLikeUnto", "protectName", "protectSetAttribute", "protectModule",
   "isinstance", "sorted", "object", "dottedName", "_names", "ConfigurationError", "ModuleType", "IField"]

/-- Reading a global name. -/
def mglob (n : Name) : M Reading PV :=
  if n = "PublicPermission" then pure (.v publicPermission)
  else if n ∈ metaSymbols then pure (.sym n)
  else stuck

/-- The attribute of the handler. -/
def ownAttr (n : Name) : M Reading PV := do
  let s ← M.get
  match Env.get? s.app.attrs n with
  | some x => pure x
  | none => M.throw (.attributeError n)

/-- `o.n`.  A module has no attribute `__module__`. -/
def mgetattr (N : Naming) (o : PV) (n : Name) : M Reading PV :=
  match o with
  | .sym c =>
    if c = "self" then ownAttr n
    else if c = "_context" ∧ n = "module" then pure (.v N.module)
    else stuck
  | .v (.type t) =>
    if n = "__module__" then pure (.v (.str 0 (N.clsModule t)))
    else if n = "__name__" then pure (.v (.str 0 (N.clsName t)))
    else stuck
  | .v (.module _) => if n = "__module__" then M.throw (.attributeError n) else stuck
  | .iface i => if n = "__module__" then pure (.v (.str 0 (N.ifaceModule i))) else stuck
  | .descr (.field r) => if n = "readonly" then pure (.v (.bool r)) else stuck
  | _ => stuck

/-- `self.n = x`. -/
def msetattr (o : PV) (n : Name) (x : PV) : M Reading Unit :=
  match o with
  | .sym c => if c = "self" then M.modify fun s => { s with app := { s.app with attrs := (n, x) :: s.app.attrs } } else stuck
  | _ => stuck

/-- `bool(x)`: `None` and empty strings and lists are false; classes and interfaces are true. -/
def mtruth (x : PV) : M Reading Bool :=
  match x with
  | .v (.bool b) => pure b
  | .v .none => pure false
  | .v (.str _ t) => pure (!(t == ""))
  | .v (.type _) => pure true
  | .v (.module _) => pure true
  | .iface _ => pure true
  | .list l => pure (!l.isEmpty)
  | .tuple l => pure (!l.isEmpty)
  | _ => stuck

/-- What items are sorted by: names, or tuples that begin with a name. -/
def sortKey : PV → Option Name
  | .v (.str _ n) => some n
  | .tuple (.v (.str _ n) :: _) => some n
  | _ => none

/-- Two items are in order. -/
def inOrder (a b : PV) : Bool :=
  match sortKey a, sortKey b with
  | some m, some n => decide (m ≤ n)
  | _, _ => true

/-- The items of something iterable: an interface gives its names. -/
def miter (x : PV) : M Reading (List PV) :=
  match x with
  | .tuple l => pure l
  | .list l => pure l
  | .iface i => pure (i.keys.map nameV)
  | .v .none => M.throw .typeError
  | _ => stuck

/-- `sorted(x)`. -/
def msorted (x : PV) : M Reading PV := do
  let l ← miter x
  pure (.list (l.mergeSort inOrder))

/-- Calling something that is not run from its source. -/
def mcall (f : Name) (args : List PV) : M Reading PV :=
  if f = "ConfigurationError" then pure (.exn .configurationError)
  else if f = "object" then pure (.sym "object()")
  else if f = "sorted" then
    match args with
    | [x] => msorted x
    | _ => stuck
  else if f = "isinstance" then
    match args with
    | [.v (.module _), .sym _] => pure (.v (.bool true))
    | [.v (.type _), .sym _] => pure (.v (.bool false))
    | _ => stuck
  else stuck

/-- Methods that are not run from their source. -/
def mmethod (N : Naming) (o : PV) (m : Name) (args : List PV) (kws : List (Name × PV)) : M Reading PV :=
  match o, args with
  | .sym c, [] => if c = "_context" ∧ m = "action" then unit (M.modify fun s => emit s [kws]) else stuck
  | .sym c, [.descr d] =>
    if c = "IField" ∧ m = "providedBy" then pure (.v (.bool (decide (d ≠ .notField)))) else stuck
  | .iface i, [] => if m = "getName" then pure (.v (.str 0 (N.ifaceName i))) else stuck
  | .iface i, [_] =>
    if m = "namesAndDescriptions" then pure (.list (i.map fun p => .tuple [nameV p.1, .descr p.2])) else stuck
  | _, _ => stuck

/-- `x[i]`: what an interface says about a name. -/
def mgetitem (x i : PV) : M Reading PV :=
  match x, i with
  | .iface i, .v (.str _ n) =>
    match PyDict.get? i n with
    | some d => pure (.descr d)
    | none => M.throw .keyError
  | _, _ => stuck

/-- `x not in d` for a dictionary. -/
def mcompare (op : CmpOp) (x y : PV) : M Reading PV :=
  match op, x, y with
  | .notIn, .v (.str _ n), .dict d => do
    let s ← M.get
    pure (.v (.bool (!(s.dicts d).mem n)))
  | _, _, _ => stuck

/-- `+` on strings and lists. -/
def mbin (op : String) (x y : PV) : M Reading PV :=
  if op = "+" then
    match x, y with
    | .v (.str _ a), .v (.str _ b) => pure (.v (.str 0 (a ++ b)))
    | .list a, .list b => pure (.list (a ++ b))
    | _, _ => stuck
  else stuck

/-- The source of a method or function. -/
def fnOf (l : List (Name × Fn)) (n : Name) : Option Fn :=
  match l with
  | [] => none
  | (m, f) :: r => if m = n then some f else fnOf r n

/-- The functions of metaconfigure.py that are called by name. -/
def metaFns : List (Name × Fn) :=
  [("dottedName", Src.Metaconfigure.dottedName), ("_names", Src.Metaconfigure._names)]

/-- The language with given calls and methods. -/
def metaWith (N : Naming) (call : Name → List PV → M Reading PV) (method : Name → List PV → M Reading PV) : Lang Reading where
  glob := mglob
  setGlob := fun _ _ => stuck
  getattr := mgetattr N
  setattr := msetattr
  delattr := fun _ _ => stuck
  getitem := mgetitem
  setitem := lsetitem
  delitem := fun _ _ => stuck
  method := fun o m args kws =>
    match o with
    | .sym c => if c = "self" then method m args else mmethod N o m args kws
    | o => mmethod N o m args kws
  call := fun f args _ =>
    match f with
    | .sym f => call f args
    | _ => stuck
  same := same
  compare := mcompare
  bin := mbin
  truth := mtruth
  fmt := fun _ _ => stuck
  join := fun _ => stuck
  newDict := lnewDict
  iter := miter
  unpack := lunpack
  catches := lcatches
  toExn := ltoExn
  fuel := 0

/-- Running the source of a function, if there is one. -/
def runFn (L : Lang Reading) (f : Option Fn) (args : List PV) (other : M Reading PV) : M Reading PV :=
  match f with
  | some f => run L f args
  | none => other

/-- The language of metaconfigure.py: calls go `n` deep. -/
def metaLang (N : Naming) : Nat → Lang Reading
  | 0 => metaWith N mcall (fun _ _ => stuck)
  | n + 1 => metaWith N
      (fun f args => runFn (metaLang N n) (fnOf metaFns f) args (mcall f args))
      (fun m args => runFn (metaLang N n) (fnOf Src.Metaconfigure.ClassDirective.methods m) (.sym "self" :: args) stuck)

end ZS.PyC
