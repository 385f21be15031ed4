import Verif.Model.PyRead
import Verif.Model.File
import Verif.Source.Zcml
import Verif.Source.Permission

/-!
# What the names in the source of zcml.py and permission.py mean

`zcmlLang` is the language of zcml.py while a configuration is read: the context of a directive is
`_context`, the context around it `context`.  An attribute that a context does not have is that of the context around it, as
zope.configuration's `GroupingContextDecorator` does; so `permission_mapping` is that of the innermost context that has one.

`permLang` is the language of permission.py: the permission utilities visible from a context are given.
A `SimpleTerm` is the tuple of its value, token and title; an object of the class `Permission` the tuple of its attributes.
-/

namespace ZS.PyC
open ZS
variable {A : Type}

/-! ## permission.py -/

/-- A string. -/
abbrev strV (s : String) : PV := .v (.str 0 s)

/-- What zope.component and zope.schema do for permission.py: the utilities visible from a context, the truth value of
a permission object and the escaping of tokens. -/
structure Registry where
  utilities : PV → Utilities
  truth : Nat → Bool
  esc : String → String

/-- Names that stand for themselves. -/
def permSymbols : List Name :=
  ["queryUtility", "getUtilitiesFor", "IPermission", "ValueError", "SimpleTerm", "SimpleVocabulary", "sorted", "operator"]

/-- Reading a global name. -/
def pglob (n : Name) : M A PV :=
  if n = "CheckerPublic" then pure (.v publicV)
  else if n = "zope_Public" then pure (.v publicPermission)
  else if n ∈ permSymbols then pure (.sym n)
  else stuck

/-- `bool(x)`. -/
def ptruth (G : Registry) (x : PV) : M A Bool :=
  match x with
  | .v (.bool b) => pure b
  | .v .none => pure false
  | .v (.obj o) => pure (G.truth o)
  | _ => stuck

/-- A term, if it is one. -/
def termOf : PV → Option (Term Val)
  | .tuple [.v x, .v (.str _ t), .v (.str _ n)] => some ⟨x, t, n⟩
  | _ => none

/-- Terms. -/
def termsOf : List PV → Option (List (Term Val))
  | [] => some []
  | x :: r =>
    match termOf x, termsOf r with
    | some t, some l => some (t :: l)
    | _, _ => none

/-- By title. -/
def byTitle (a b : PV) : Bool :=
  match termOf a, termOf b with
  | some a, some b => decide (a.title ≤ b.title)
  | _, _ => true

/-- `queryUtility(IPermission, name, context=c)`. -/
def pquery (G : Registry) (args : List PV) (kws : List (Name × PV)) : M A PV :=
  match args, kws with
  | [.sym i, .v (.str _ n)], [(k, c)] =>
    if i = "IPermission" ∧ k = "context" then
      match ZS.queryUtility (G.utilities c) n with
      | some o => pure (.v (.obj o))
      | none => pure (.v .none)
    else stuck
  | _, _ => stuck

/-- Calls. -/
def pcall (G : Registry) (f : PV) (args : List PV) (kws : List (Name × PV)) : M A PV :=
  match f with
  | .sym f =>
    if f = "queryUtility" then pquery G args kws
    else if f = "getUtilitiesFor" then
      match args with
      | [.sym i, c] =>
        if i = "IPermission" then pure (.list ((G.utilities c).map fun u => .tuple [strV u.1, .v (.obj u.2)])) else stuck
      | _ => stuck
    else if f = "ValueError" then pure (.exn .valueError)
    else if f = "SimpleTerm" then
      match args with
      | [x, .v (.str _ t)] => pure (.tuple [x, strV (G.esc t), strV ""])
      | [x, .v (.str _ t), n] => pure (.tuple [x, strV (G.esc t), n])
      | _ => stuck
    else if f = "SimpleVocabulary" then
      match args with
      | [.list l] =>
        match termsOf l with
        | some ts =>
          match simpleVocabulary ts with
          | .ok _ => pure (.list l)
          | .err e => M.throw e
          | .diverge => M.diverge
        | none => stuck
      | _ => stuck
    else if f = "sorted" then
      match args, kws with
      | [.list l], [(k, .bound (.sym g) a)] =>
        if k = "key" ∧ g = "attrgetter" ∧ a = "title" then pure (.list (l.mergeSort byTitle)) else stuck
      | _, _ => stuck
    else stuck
  | _ => stuck

/-- `operator.attrgetter(name)`. -/
def pmethod (o : PV) (m : Name) (args : List PV) (_ : List (Name × PV)) : M A PV :=
  match o, args with
  | .sym c, [.v (.str _ n)] => if c = "operator" ∧ m = "attrgetter" then pure (.bound (.sym "attrgetter") n) else stuck
  | _, _ => stuck

/-- `==` and `!=` on strings. -/
def pcompare (op : CmpOp) (x y : PV) : M A PV :=
  match op, x, y with
  | .eq, .v (.str _ a), .v (.str _ b) => pure (.v (.bool (decide (a = b))))
  | .ne, .v (.str _ a), .v (.str _ b) => pure (.v (.bool (decide (a ≠ b))))
  | _, _, _ => stuck

/-- `+` on lists. -/
def pbin (op : String) (x y : PV) : M A PV :=
  if op = "+" then
    match x, y with
    | .list a, .list b => pure (.list (a ++ b))
    | _, _ => stuck
  else stuck

/-- The items of a list. -/
def piter (x : PV) : M A (List PV) :=
  match x with
  | .list l => pure l
  | _ => stuck

/-- The language of permission.py. -/
def permLang (G : Registry) : Lang A where
  glob := pglob
  setGlob := fun _ _ => stuck
  getattr := fun _ _ => stuck
  setattr := fun _ _ _ => stuck
  delattr := fun _ _ => stuck
  getitem := fun _ _ => stuck
  setitem := fun _ _ _ => stuck
  delitem := fun _ _ => stuck
  method := pmethod
  call := pcall G
  same := same
  compare := pcompare
  bin := pbin
  truth := ptruth G
  fmt := fun _ _ => stuck
  join := fun _ => stuck
  newDict := fun _ => stuck
  iter := piter
  unpack := lunpack
  catches := lcatches
  toExn := ltoExn
  fuel := 0

/-! ## zcml.py -/

/-- The innermost `permission_mapping`. -/
def mapping? : List (Option Nat) → Option Nat
  | [] => none
  | some d :: _ => some d
  | none :: r => mapping? r

/-- Names that stand for themselves. -/
def zcmlSymbols : List Name :=
  ["checkPermission", "setSecurityPolicy", "getattr", "hasattr", "zope.component.zcml.utility",
   "zope.security.interfaces.IPermission", "zope.security.permission.Permission"]

/-- Reading a global name. -/
def zglob (n : Name) : M Reading PV :=
  if n = "zope_Public" then pure (.v publicPermission)
  else if n ∈ zcmlSymbols then pure (.sym n)
  else stuck

/-- `permission_mapping` of a context. -/
def mappingOf : M Reading PV := do
  let s ← M.get
  match mapping? s.app.maps with
  | some d => pure (.dict d)
  | none => M.throw (.attributeError "permission_mapping")

/-- `o.n`. -/
def zgetattr (o : PV) (n : Name) : M Reading PV :=
  match o with
  | .sym c =>
    if c = "self" ∧ n = "context" then pure (.sym "_context")
    else if c = "_context" ∧ n = "context" then pure (.sym "context")
    else if c = "context" ∧ n = "permission_mapping" then mappingOf
    else stuck
  | _ => stuck

/-- `context.permission_mapping = x`. -/
def zsetattr (o : PV) (n : Name) (x : PV) : M Reading Unit :=
  match o, x with
  | .sym c, .dict d =>
    if c = "context" ∧ n = "permission_mapping" then
      M.modify fun s => { s with app := { s.app with maps := some d :: s.app.maps.tail } }
    else stuck
  | _, _ => stuck

/-- Calls.  `utility` of zope.component emits an action that registers the component. -/
def zcall (f : PV) (args : List PV) (kws : List (Name × PV)) : M Reading PV :=
  match f with
  | .sym f =>
    if f = "getattr" then
      match args with
      | [.sym c, .v (.str _ n), d] =>
        if c = "_context" ∧ n = "permission_mapping" then do
          let s ← M.get
          match mapping? s.app.maps with
          | some d => pure (.dict d)
          | none => pure d
        else stuck
      | _ => stuck
    else if f = "hasattr" then
      match args with
      | [.sym c, .v (.str _ n)] =>
        if c = "context" ∧ n = "permission_mapping" then do
          let s ← M.get
          pure (.v (.bool (mapping? s.app.maps).isSome))
        else stuck
      | _ => stuck
    else if f = "zope.security.permission.Permission" then
      match args with
      | [i, t, d] => pure (.tuple [i, t, d])
      | _ => stuck
    else if f = "zope.component.zcml.utility" then
      match args, kws with
      | [.sym c, .sym i, o], [(k, n)] =>
        if c = "_context" ∧ k = "name" then
          unit (M.modify fun s => emit s [[("discriminator", .tuple [strV "utility", .sym i, n]), ("callable", .sym "handler"),
            ("args", .tuple [strV "registerUtility", o, .sym i, n])]])
        else stuck
      | _, _ => stuck
    else stuck
  | _ => stuck

/-- Methods.  `super()` is `zope.schema.Id`: its `fromUnicode` strips the text, validates the result, by the `_validate` of the field, and
returns it; its `_validate` raises an exception for an invalid id. -/
def zmethod (f : IdField) (validate : PV → M Reading PV) (o : PV) (m : Name) (args : List PV) (kws : List (Name × PV)) : M Reading PV :=
  match o, args with
  | .sup _, [.v (.str _ r)] =>
    if m = "fromUnicode" then do
      let _ ← validate (strV (f.strip r))
      pure (strV (f.strip r))
    else if m = "_validate" then if f.valid r then pure (.v .none) else M.throw .configurationError
    else stuck
  | .sym c, [] => if c = "_context" ∧ m = "action" then unit (M.modify fun s => emit s [kws]) else stuck
  | .dict d, [.v (.str _ n), .v x] =>
    if m = "get" then do
      let s ← M.get
      pure (.v (((s.dicts d).get? n).getD x))
    else stuck
  | _, _ => stuck

/-- The language of zcml.py with a given `_validate`. -/
def zcmlWith (f : IdField) (validate : PV → M Reading PV) : Lang Reading where
  glob := zglob
  setGlob := fun _ _ => stuck
  getattr := zgetattr
  setattr := zsetattr
  delattr := fun _ _ => stuck
  getitem := fun _ _ => stuck
  setitem := lsetitem
  delitem := fun _ _ => stuck
  method := zmethod f validate
  call := zcall
  same := same
  compare := pcompare
  bin := fun _ _ _ => stuck
  truth := mtruth
  fmt := fun _ _ => stuck
  join := fun _ => stuck
  newDict := lnewDict
  iter := miter
  unpack := lunpack
  catches := lcatches
  toExn := ltoExn
  fuel := 0

/-- The language of zcml.py: `_validate` is run from its source. -/
def zcmlLang (f : IdField) : Lang Reading :=
  zcmlWith f fun x => run (zcmlWith f fun _ => stuck) Src.Zcml.Permission._validate [.sym "self", x]

end ZS.PyC
