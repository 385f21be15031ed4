import Verif.Model.Permission

/-!
# Permission ids in ZCML (zcml.py)

`Id.fromUnicode` of zope.schema strips the text, validates the result (which calls
`Permission._validate`) and returns it; `strip` and `valid` stand for the parts of it that are not in
this package.  All directives are read in one configuration context; nested contexts and included files
are in `Model/File.lean`, which reads permission ids with the functions here.  The actions are carried
out sorted by `order`, otherwise in the order in which they were emitted, as zope.configuration does.
-/

namespace ZS

/-- What zope.schema does with the text of an id. -/
structure IdField where
  strip : String → String
  valid : String → Bool

/-- Actions of the directives of zcml.py. -/
inductive ZAction where
  /-- registering the permission as utility (zcml.py:96-102) -/
  | define (id : String)
  /-- `checkPermission(None, id)` (zcml.py:44-57) -/
  | check (id : String)
  /-- `setSecurityPolicy(component)` (zcml.py:69-74) -/
  | policy (component : Nat)
  deriving DecidableEq, Repr

/-- The `order` of an action (zcml.py:56); it is 0 unless given. -/
def ZAction.order : ZAction → Nat
  | .check _ => 9999999
  | _ => 0

/-- The configuration context: `permission_mapping`, which may not exist, and the actions. -/
structure ZCtx where
  mapping : Option (PyDict String String)
  actions : List ZAction
  deriving DecidableEq, Repr

/-- `Permission._validate` (zcml.py:41-57). -/
def validatePermission (f : IdField) (c : ZCtx) (u : String) : Res ZCtx :=
  if f.valid u then
    if u ≠ zopePublic then .ok { c with actions := c.actions ++ [.check u] } else .ok c
  else .err .configurationError

/-- `map = getattr(self.context, 'permission_mapping', {}); map.get(u, u)` (zcml.py:38-39). -/
def mapPermission (c : ZCtx) (u : String) : String :=
  match c.mapping with
  | none => u
  | some m => (m.get? u).getD u

/-- `Permission.fromUnicode` (zcml.py:35-39): the value and the context afterwards. -/
def permissionFromUnicode (f : IdField) (c : ZCtx) (raw : String) : Res (String × ZCtx) :=
  match validatePermission f c (f.strip raw) with
  | .ok c1 => .ok (mapPermission c1 (f.strip raw), c1)
  | .err e => .err e
  | .diverge => .diverge

/-- `redefinePermission` (zcml.py:119-126). -/
def redefinePermission (c : ZCtx) (from_ to : String) : ZCtx :=
  let m : PyDict String String := match c.mapping with
    | none => []
    | some m => m
  { c with mapping := some (m.set from_ to) }

/-- Directives that have to do with permission ids. -/
inductive ZDirective where
  /-- `<permission id="...">` (zcml.py:77-102) -/
  | permission (raw : String)
  /-- `<redefinePermission from="..." to="...">` (zcml.py:105-126) -/
  | redefine (from_ to : String)
  /-- any directive with a `Permission` field -/
  | use (raw : String)
  /-- `<securityPolicy component="...">` (zcml.py:60-74) -/
  | securityPolicy (component : Nat)
  deriving DecidableEq, Repr

/-- Reading a directive: the permission ids it gets, and the context afterwards. -/
def readZ (f : IdField) (c : ZCtx) : ZDirective → Res (List String × ZCtx)
  | .permission raw =>
    if f.valid (f.strip raw) then .ok ([], { c with actions := c.actions ++ [.define (f.strip raw)] })
    else .err .configurationError
  | .redefine a b =>
    match permissionFromUnicode f c a with
    | .ok (a', c1) =>
      match permissionFromUnicode f c1 b with
      | .ok (b', c2) => .ok ([], redefinePermission c2 a' b')
      | .err e => .err e
      | .diverge => .diverge
    | .err e => .err e
    | .diverge => .diverge
  | .use raw =>
    match permissionFromUnicode f c raw with
    | .ok (p, c1) => .ok ([p], c1)
    | .err e => .err e
    | .diverge => .diverge
  | .securityPolicy p => .ok ([], { c with actions := c.actions ++ [.policy p] })

/-- Reading a configuration: the permission ids the directives got, in order. -/
def readAllZ (f : IdField) : ZCtx → List ZDirective → Res (List String × ZCtx)
  | c, [] => .ok ([], c)
  | c, d :: r =>
    match readZ f c d with
    | .ok (l, c1) =>
      match readAllZ f c1 r with
      | .ok (l', c2) => .ok (l ++ l', c2)
      | .err e => .err e
      | .diverge => .diverge
    | .err e => .err e
    | .diverge => .diverge

/-- What the actions act on: the permission utilities and the security policy. -/
structure ZSite where
  utilities : Utilities
  policy : Option Nat
  deriving DecidableEq, Repr

/-- Carrying out an action.  A permission object is true. -/
def runZAction (s : ZSite) : ZAction → Res ZSite
  | .define id => .ok { s with utilities := (id, 0) :: s.utilities }
  | .check id =>
    match checkPermissionDefined s.utilities (fun _ => true) (.id id) with
    | .ok _ => .ok s
    | .err e => .err e
    | .diverge => .diverge
  | .policy p => .ok { s with policy := some p }

/-- Carrying out actions until one raises. -/
def runZActions : ZSite → List ZAction → Res ZSite
  | s, [] => .ok s
  | s, a :: r =>
    match runZAction s a with
    | .ok s1 => runZActions s1 r
    | .err e => .err e
    | .diverge => .diverge

/-- Sorting by `order`. -/
def sortActions (l : List ZAction) : List ZAction := l.mergeSort fun a b => decide (a.order ≤ b.order)

/-- Reading a configuration and carrying out its actions: the ids the directives got and the site
afterwards. -/
def configureZ (f : IdField) (s : ZSite) (ds : List ZDirective) : Res (List String × ZSite) :=
  match readAllZ f ⟨none, []⟩ ds with
  | .ok (l, c) =>
    match runZActions s (sortActions c.actions) with
    | .ok s' => .ok (l, s')
    | .err e => .err e
    | .diverge => .diverge
  | .err e => .err e
  | .diverge => .diverge

end ZS
