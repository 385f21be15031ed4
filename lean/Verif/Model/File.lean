import Verif.Model.Zcml
import Verif.Model.Meta
import Verif.Model.Management

/-!
# Whole configurations: nesting, redefinitions, conflicts (zcml.py, metaconfigure.py)

A configuration as zope.configuration goes through it: elements are entered and left, directives are
read in the context they stand in, actions are collected, conflicts between them resolved, and what
remains is carried out in order.  `zope.configuration` is not in `/repo`; what is modelled of it is
`GroupingContextDecorator` (attributes not found are looked up in the enclosing context),
`ConfigurationContext.action`, `resolveConflicts` and `execute_actions` of its `config.py`.  A file
that is included a second time is not read again, so the events of such an inclusion are not there.
Two actions emitted with a new `object()` in the discriminator, or with `None`, cannot conflict;
both are actions without discriminator here.
-/

namespace ZS
variable {A : Type}

/-- `require` as written (metadirectives.py:53-107): the permission is text or missing. -/
structure RawRequire where
  permission : Option String
  attributes : List Name
  interface : List (Option Iface)
  likeClass : Option Key
  setAttributes : List Name
  setSchema : List (Option Iface)

/-- The subdirectives of the class directive, as written. -/
inductive RawSub where
  | require (r : RawRequire)
  | allow (attributes : List Name) (interface : List (Option Iface))
  | implements (interface : List Iface)

/-- The directives inside the module directive, as written. -/
inductive RawModSub where
  | allow (attributes : List Name) (interface : List Iface)
  | require (permission : String) (attributes : List Name) (interface : List Iface)

/-- What happens while a configuration is read: a grouping element is entered — an included file if it
has a name, a nested `configure` or `module` otherwise — or left, or a directive is read. -/
inductive Ev where
  | enter (file : Option String)
  | leave
  | permission (raw : String)
  | redefine (from_ to : String)
  | policy (p : Policy)
  | cls (t : String) (sub : RawSub)
  | mod (m : String) (sub : RawModSub)

/-- A context: its own attributes `permission_mapping`, which may be missing, and `includepath`. -/
structure Frame where
  mapping : Option (PyDict String String)
  path : List String
  deriving DecidableEq, Repr

/-- The discriminators that can be equal (metaconfigure.py:126, 140, 152, 217-218, 227-228; zcml.py:71;
that of zope.component's `utility` for zcml.py:102). -/
inductive Disc where
  | protectName (k : Key) (n : Name)
  | protectSetAttribute (k : Key) (n : Name)
  | utility (id : String)
  | defaultPolicy
  deriving DecidableEq, Repr

/-- The callable of an action with its arguments. -/
inductive Call where
  | define (id : String)
  | check (id : String)
  | policy (p : Policy)
  | declare (a : Action)

/-- An action, as `_context.action` records it. -/
structure FAction where
  disc : Option Disc
  order : Nat
  path : List String
  call : Call

/-! ## Reading -/

/-- `getattr(context, 'permission_mapping', ...)`: the innermost context that has the attribute. -/
def inForce : List Frame → Option (PyDict String String)
  | [] => none
  | c :: r =>
    match c.mapping with
    | some m => some m
    | none => inForce r

/-- `permission_mapping[from_] = to` on the dictionary found by `inForce`. -/
def redefineIn (a b : String) : List Frame → List Frame
  | [] => []
  | c :: r =>
    match c.mapping with
    | some m => { c with mapping := some (m.set a b) } :: r
    | none => c :: redefineIn a b r

/-- `redefinePermission` (zcml.py:119-126) in the innermost of the contexts: `hasattr` finds the
attribute of an enclosing context too. -/
def redefineAt (a b : String) (st : List Frame) : List Frame :=
  match inForce st with
  | some _ => redefineIn a b st
  | none =>
    match st with
    | [] => []
    | c :: r => { c with mapping := some (PyDict.set [] a b) } :: r

/-- The include path of the innermost context. -/
def currentPath : List Frame → List String
  | [] => []
  | c :: _ => c.path

/-- The action of a `Permission` field (zcml.py:44-57). -/
def fieldAction (path : List String) : ZAction → List FAction
  | .check u => [⟨none, (ZAction.check u).order, path, .check u⟩]
  | _ => []

/-- A `Permission` field (zcml.py:31-57) read in a context. -/
def readPermission (f : IdField) (st : List Frame) (raw : String) : Res (String × List FAction) :=
  match permissionFromUnicode f ⟨inForce st, []⟩ raw with
  | .ok (v, c) => .ok (v, c.actions.flatMap (fieldAction (currentPath st)))
  | .err e => .err e
  | .diverge => .diverge

/-- The discriminator of an action of metaconfigure.py (lines 61-62, 67, 103, 117, 126, 140, 152, 157,
217-218, 227-228). -/
def discOf : Action → Option Disc
  | .mimic _ _ => none
  | .name k n _ => some (.protectName k n)
  | .setAttr k n _ => some (.protectSetAttribute k n)
  | .classImplements _ _ => none
  | .provideInterface _ => none

/-- The actions of a directive about a class or module, in a file. -/
def emitIn (path : List String) (d : Directive) : Res (List FAction) :=
  match (emitDirective d).2 with
  | some e => .err e
  | none => .ok ((emitDirective d).1.map fun a => ⟨discOf a, 0, path, .declare a⟩)

/-- `require` with the permission that was read. -/
def RawRequire.read (r : RawRequire) (p : Val) : Require :=
  ⟨p, r.attributes, r.interface, r.likeClass, r.setAttributes, r.setSchema⟩

/-- A permission id, once read.  The identity of the string does not matter: it is compared by
equality (protectclass.py:32, 48; metaconfigure.py:191). -/
def idVal (v : String) : Val := .str 0 v

/-- The directive that is meant, and the actions of its `Permission` field (metadirectives.py:58-64,
201-204). -/
def readDirective (f : IdField) (st : List Frame) : Ev → Res (Option (Directive × List FAction))
  | .cls t (.require r) =>
    match r.permission with
    | none => .ok (some (.cls t (.require (r.read .none)), []))
    | some raw =>
      match readPermission f st raw with
      | .ok (v, l) => .ok (some (.cls t (.require (r.read (idVal v))), l))
      | .err e => .err e
      | .diverge => .diverge
  | .cls t (.allow attributes interface) => .ok (some (.cls t (.allow attributes interface), []))
  | .cls t (.implements interface) => .ok (some (.cls t (.implements interface), []))
  | .mod m (.allow attributes interface) => .ok (some (.mod m (.allow attributes interface), []))
  | .mod m (.require raw attributes interface) =>
    match readPermission f st raw with
    | .ok (v, l) => .ok (some (.mod m (.require (idVal v) attributes interface), l))
    | .err e => .err e
    | .diverge => .diverge
  | _ => .ok none

/-- One event: the contexts and the actions emitted.  `permission` (zcml.py:95-102) has a plain `Id`
field (80-83); the fields of `redefinePermission` (zcml.py:105-126) are `Permission`s, read in this order;
`securityPolicy` is zcml.py:69-74; classes and modules are metaconfigure.py:59-230. -/
def readEv (f : IdField) (st : List Frame) (e : Ev) : Res (List Frame × List FAction) :=
  match e with
  | .enter file => .ok (⟨none, currentPath st ++ file.toList⟩ :: st, [])
  | .leave =>
    match st with
    | _ :: c :: r => .ok (c :: r, [])
    | _ => .err .configurationError
  | .permission raw =>
    if f.valid (f.strip raw) then
      .ok (st, [⟨some (.utility (f.strip raw)), 0, currentPath st, .define (f.strip raw)⟩])
    else .err .configurationError
  | .redefine a b =>
    match readPermission f st a with
    | .ok (a', l1) =>
      match readPermission f st b with
      | .ok (b', l2) => .ok (redefineAt a' b' st, l1 ++ l2)
      | .err e => .err e
      | .diverge => .diverge
    | .err e => .err e
    | .diverge => .diverge
  | .policy p => .ok (st, [⟨some .defaultPolicy, 0, currentPath st, .policy p⟩])
  | e =>
    match readDirective f st e with
    | .ok (some (d, l)) =>
      match emitIn (currentPath st) d with
      | .ok l' => .ok (st, l ++ l')
      | .err e => .err e
      | .diverge => .diverge
    | .ok none => .ok (st, [])
    | .err e => .err e
    | .diverge => .diverge

/-- All events. -/
def readEvs (f : IdField) : List Frame → List Ev → Res (List Frame × List FAction)
  | st, [] => .ok (st, [])
  | st, e :: r =>
    match readEv f st e with
    | .ok (st1, l1) =>
      match readEvs f st1 r with
      | .ok (st2, l2) => .ok (st2, l1 ++ l2)
      | .err e => .err e
      | .diverge => .diverge
    | .err e => .err e
    | .diverge => .diverge

/-! ## Resolving conflicts -/

/-- An action with its position in the list. -/
abbrev Info := FAction × Nat

/-- Sorting with a key, stably. -/
def insertBy (le : α → α → Bool) (x : α) : List α → List α
  | [] => [x]
  | y :: r => if le x y then x :: y :: r else y :: insertBy le x r

/-- `list.sort`. -/
def sortBy (le : α → α → Bool) : List α → List α
  | [] => []
  | x :: r => insertBy le x (sortBy le r)

/-- Comparison of tuples of strings. -/
def pathLe : List String → List String → Bool
  | [], _ => true
  | _ :: _, [] => false
  | a :: r, b :: s => if a = b then pathLe r s else decide (a < b)

/-- The key `(includepath, order, i)`. -/
def byPath (a b : Info) : Bool :=
  if a.1.path = b.1.path then
    if a.1.order = b.1.order then decide (a.2 ≤ b.2) else decide (a.1.order < b.1.order)
  else pathLe a.1.path b.1.path

/-- The key `(order, i)`. -/
def byOrder (a b : Info) : Bool :=
  if a.1.order = b.1.order then decide (a.2 ≤ b.2) else decide (a.1.order < b.1.order)

/-- One discriminator: the first of its actions remains, if its path is a proper prefix of the paths of
all others; otherwise there is a conflict. -/
def resolveGroup (group : List Info) : Option Info :=
  match sortBy byPath group with
  | [] => none
  | base :: rest =>
    if rest.any fun a => !(base.1.path.isPrefixOf a.1.path) || a.1.path == base.1.path then none
    else some base

/-- The discriminators in use, each once. -/
def discriminators : List FAction → List Disc
  | [] => []
  | a :: r =>
    match a.disc with
    | some d => d :: (discriminators r).filter (· ≠ d)
    | none => discriminators r

/-- What remains of each discriminator, unless there is a conflict. -/
def resolveGroups (infos : List Info) : List Disc → Option (List Info)
  | [] => some []
  | d :: r =>
    match resolveGroup (infos.filter fun a => a.1.disc = some d), resolveGroups infos r with
    | some base, some l => some (base :: l)
    | _, _ => none

/-- `resolveConflicts` of zope.configuration: the actions to carry out, in order, unless there is a
`ConfigurationConflictError`. -/
def resolveConflicts (actions : List FAction) : Option (List FAction) :=
  let infos := actions.zipIdx
  match resolveGroups infos (discriminators actions) with
  | some l => some ((sortBy byOrder (infos.filter (fun a => a.1.disc = none) ++ l)).map (·.1))
  | none => none

/-! ## Carrying out -/

/-- What the actions act on. -/
structure Site (A : Type) where
  state : St A
  utilities : Utilities

/-- Carrying out one action: registering the permission (zcml.py:102), `checkPermission`
(permission.py:45-53; a permission object is true), `setSecurityPolicy` (management.py:61-72), or what
the directives of metaconfigure.py gave. -/
def runCall (x : Site A) : Call → Res Unit × Site A
  | .define id => (.ok (), { x with utilities := (id, 0) :: x.utilities })
  | .check id => (checkPermissionDefined x.utilities (fun _ => true) (.id id), x)
  | .policy p =>
    match setSecurityPolicy p x.state with
    | (.ok _, s) => (.ok (), { x with state := s })
    | (.err e, s) => (.err e, { x with state := s })
    | (.diverge, s) => (.diverge, { x with state := s })
  | .declare a =>
    let r := runAction a x.state
    (r.1, { x with state := r.2 })

/-- `execute_actions`: one after the other until one raises. -/
def runCalls (x : Site A) : List Call → Res Unit × Site A
  | [] => (.ok (), x)
  | c :: r =>
    match runCall x c with
    | (.ok _, x1) => runCalls x1 r
    | (.err e, x1) => (.err e, x1)
    | (.diverge, x1) => (.diverge, x1)

/-- Reading a configuration, resolving conflicts and carrying out the actions. -/
def loadFile (f : IdField) (evs : List Ev) (x : Site A) : Res Unit × Site A :=
  match readEvs f [⟨none, []⟩] evs with
  | .ok (_, l) =>
    match resolveConflicts l with
    | some l => runCalls x (l.map (·.call))
    | none => (.err .configurationError, x)
  | .err e => (.err e, x)
  | .diverge => (.diverge, x)

end ZS
