import Verif.Model.PyHost
import Verif.Model.Sandbox
import Verif.Source.SandboxSecurity

/-!
# What the names in the source of examples/sandbox_security.py mean

`sandLang` is the language of the functions and statements of examples/sandbox_security.py.  Its module-level
variables, the assignments to attributes of the module `sandbox` and its classes, and the policy last set are kept in
the state.  The database the policy looks at is any; `databaseOf` reads one off the variables of a class body.  A class of the module
`sandbox` is known by its name.
-/

namespace ZS.PyC
open ZS

/-- What examples/sandbox_security.py changes. -/
structure Sand where
  /-- the module-level variables -/
  vars : Name → Option PV
  /-- `sandbox.c.n = x`, or `sandbox.n = x` with "" for `c`, in order -/
  wired : List (Name × Name × PV)
  /-- the argument of `setSecurityPolicy` -/
  policy : Option PV
  /-- the variables of the body of the class being made -/
  cls : Name → Option PV

/-- Where the policy is asked: the database, the id of the home of the object, and the authentication tokens of the
principals of the interaction's participations. -/
structure Place where
  db : String → DbAttr String
  home : String
  tokens : List String

/-- A string. -/
abbrev textV (t : String) : PV := .v (.str 0 t)

/-- A dictionary that is nowhere changed: a list of pairs. -/
abbrev display (l : List PV) : PV := .bound (.list l) "dict"

/-- Is it this string? -/
def isThe (a : String) : PV → Bool
  | .v (.str _ b) => decide (a = b)
  | _ => false

/-- Functions, classes and modules. -/
def sandSymbols : List Name :=
  ["getattr", "checker", "management", "sandbox", "SimulationSecurityDatabase", "SimulationSecurityPolicy", "PermissionMapChecker"]

/-- Reading a global name. -/
def sbGlob (n : Name) : M Sand PV := do
  let s ← M.get
  match s.app.vars n with
  | some x => pure x
  | none =>
    if n ∈ sandSymbols then pure (.sym n)
    else if n = "__name__" then pure (textV "sandbox_security")
    else stuck

/-- Assigning to a global name. -/
def sbSetGlob (n : Name) (x : PV) : M Sand Unit :=
  M.modify fun s => { s with app := { s.app with vars := fun m => if m = n then some x else s.app.vars m } }

/-- Attributes. -/
def sbGetattr (P : Place) (o : PV) (n : Name) : M Sand PV :=
  match o with
  | .sym m =>
    if m = "checker" then (if n = "CheckerPublic" then pure (.v publicV) else stuck)
    else if m = "self" then (if n = "participations" then pure (.list (P.tokens.map fun t => .bound (.sym "participation") t)) else stuck)
    else if m = "sandbox" then pure (.bound (.sym "sandbox") n)
    else stuck
  | .bound (.sym m) t => if m = "participation" ∧ n = "principal" then pure (.bound (.sym "principal") t) else stuck
  | _ => stuck

/-- Assigning to an attribute. -/
def sbSetattr (o : PV) (n : Name) (x : PV) : M Sand Unit :=
  match o with
  | .sym m => if m = "sandbox" then M.modify fun s => { s with app := { s.app with wired := s.app.wired ++ [("", n, x)] } } else stuck
  | .bound (.sym m) c =>
    if m = "sandbox" then M.modify fun s => { s with app := { s.app with wired := s.app.wired ++ [(c, n, x)] } } else stuck
  | _ => stuck

/-- `d[k] = x`. -/
def sbSetitem (d k x : PV) : M Sand Unit :=
  match d, k, x with
  | .dict d, .v (.str _ n), .v x =>
    M.modify fun s => { s with dicts := fun j => if j = d then (s.dicts d).set n x else s.dicts j }
  | _, _, _ => stuck

/-- `db.get(k, default)` on an attribute of the database class. -/
def dbGet (P : Place) (h k : String) (default : PV) : M Sand PV :=
  match P.db h with
  | .table t =>
    match t k with
    | some l => pure (.list (l.map textV))
    | none => pure default
  | .other => M.throw (.attributeError "get")
  | .missing => stuck

/-- Methods, and functions of the modules of the package. -/
def sbMethod (P : Place) (o : PV) (m : Name) (args : List PV) (_ : List (Name × PV)) : M Sand PV :=
  match o with
  | .sym o =>
    if o = "object" then (if m = "getHome" then pure (.sym "home") else stuck)
    else if o = "home" then (if m = "getId" then pure (textV P.home) else stuck)
    else if o = "checker" then
      (match args with
      | [.dict g, .dict st] => if m = "Checker" then (do let c ← newChecker g st; pure (.v c)) else stuck
      | [.bound (.sym x) c, .v k] =>
        if m = "defineChecker" ∧ x = "sandbox" then (do defineChecker (.type c) k; pure (.v .none)) else stuck
      | _ => stuck)
    else if o = "management" then
      (match args with
      | [x] =>
        if m = "setSecurityPolicy" then
          (do M.modify fun s => { s with app := { s.app with policy := some x } }
              pure (.v .none))
        else stuck
      | _ => stuck)
    else stuck
  | .bound (.sym o) t =>
    if o = "principal" then (if m = "getAuthenticationToken" then pure (textV t) else stuck)
    else if o = "database" then
      (match args with
      | [.v (.str _ k), d] => if m = "get" then dbGet P t k d else stuck
      | _ => stuck)
    else stuck
  | .bound (.list l) d => if d = "dict" ∧ m = "items" then pure (.list l) else stuck
  | .dict d =>
    if m = "items" then (do
      let s ← M.get
      pure (.list ((s.dicts d).map fun p => .tuple [textV p.1, .v p.2])))
    else stuck
  | _ => stuck

/-- `getattr(SimulationSecurityDatabase, h, default)`. -/
def sbCall0 (P : Place) (f : PV) (args : List PV) (_ : List (Name × PV)) : M Sand PV :=
  match f with
  | .sym f =>
    (match args with
    | [.sym c, .v (.str _ h), d] =>
      if f = "getattr" ∧ c = "SimulationSecurityDatabase" then
        (match P.db h with
        | .missing => pure d
        | _ => pure (.bound (.sym "database") h))
      else stuck
    | _ => stuck)
  | _ => stuck

/-- `x in y`, `x not in y`, `x == y`. -/
def sbCompare (op : CmpOp) (x y : PV) : M Sand PV :=
  match op, x, y with
  | .isIn, .v (.str _ a), .list l => pure (.v (.bool (l.any (isThe a))))
  | .isIn, .v (.str _ a), .tuple l => pure (.v (.bool (l.any (isThe a))))
  | .notIn, .v (.str _ a), .list l => pure (.v (.bool (!l.any (isThe a))))
  | .notIn, .v (.str _ a), .tuple l => pure (.v (.bool (!l.any (isThe a))))
  | .eq, .v (.str _ a), .v (.str _ b) => pure (.v (.bool (decide (a = b))))
  | _, _, _ => stuck

/-- Truth. -/
def sbTruth : PV → M Sand Bool
  | .v (.bool b) => pure b
  | .list l => pure !l.isEmpty
  | _ => stuck

/-- `{}` and other displays. -/
def sbNewDict (l : List PV) : M Sand PV :=
  match l with
  | [] => do
    let d ← newDict []
    pure (.dict d)
  | l => pure (display l)

def sbIter : PV → M Sand (List PV)
  | .list l => pure l
  | .tuple l => pure l
  | _ => stuck

def sbUnpack : PV → Option (List PV)
  | .tuple l => some l
  | _ => none

/-- The language of the functions. -/
def sandLang0 (P : Place) : Lang Sand where
  glob := sbGlob
  setGlob := sbSetGlob
  getattr := sbGetattr P
  setattr := sbSetattr
  delattr := fun _ _ => stuck
  getitem := fun _ _ => stuck
  setitem := sbSetitem
  delitem := fun _ _ => stuck
  method := sbMethod P
  call := sbCall0 P
  same := same
  compare := sbCompare
  bin := fun _ _ _ => stuck
  truth := sbTruth
  fmt := fun _ _ => stuck
  join := fun _ => stuck
  newDict := sbNewDict
  iter := sbIter
  unpack := sbUnpack
  catches := fun _ _ => false
  toExn := fun _ => none
  fuel := 0

/-- Calls of functions of the module, which are run from source. -/
def sbCall (P : Place) (f : PV) (args : List PV) (kws : List (Name × PV)) : M Sand PV :=
  match f with
  | .sym f => if f = "PermissionMapChecker" then runIn (sandLang0 P) Src.SandboxSecurity.PermissionMapChecker [] args kws else sbCall0 P (.sym f) args kws
  | f => sbCall0 P f args kws

/-- The language of the statements of the module. -/
def sandLang (P : Place) : Lang Sand := { sandLang0 P with call := sbCall P }

/-- Names in a class body: its own first. -/
def sbBodyGlob (n : Name) : M Sand PV := do
  let s ← M.get
  match s.app.cls n with
  | some x => pure x
  | none => sbGlob n

/-- Assignments in a class body. -/
def sbBodySet (n : Name) (x : PV) : M Sand Unit :=
  M.modify fun s => { s with app := { s.app with cls := fun m => if m = n then some x else s.app.cls m } }

/-- The language of the body of a class. -/
def bodyLang (P : Place) : Lang Sand := { sandLang P with glob := sbBodyGlob, setGlob := sbBodySet }

/-! ## The database, from the body of its class -/

/-- The strings of a list. -/
def stringsIn : List PV → Option (List String)
  | [] => some []
  | .v (.str _ a) :: r => (stringsIn r).map (a :: ·)
  | _ :: _ => none

/-- The entry of a dictionary display: the last pair with that key. -/
def entryOf (k : String) : List PV → Option (List String)
  | [] => none
  | .tuple [.v (.str _ a), .list l] :: r => (entryOf k r).or (if a = k then stringsIn l else none)
  | _ :: r => entryOf k r

/-- The attribute of a class with these variables; those that every class has, such as its docstring, are `other`. -/
def databaseOf (common : String → Bool) (vars : Name → Option PV) (h : String) : DbAttr String :=
  match vars h with
  | some (.bound (.list l) d) => if d = "dict" then .table fun k => entryOf k l else .other
  | some _ => .other
  | none => if common h then .other else .missing

end ZS.PyC
