import Verif.Model.Protect

/-!
# The ZCML directives: metaconfigure.py

A directive emits actions; when every directive of a configuration has been read without an
exception the actions are carried out in order.  Include paths and conflicting discriminators are in
`Model/File.lean`; reading the XML and the schemas of the directives (metadirectives.py) belong to
zope.configuration and are not modelled.  `classImplements` and `provideInterface` do not touch
the registry of checkers and are modelled as doing nothing; `ClassDirective.factory`
(metaconfigure.py:167-178) registers a utility and is not modelled.
-/

namespace ZS
variable {A : Type}

/-- What an interface says about a name: `IField.providedBy(d)` and `d.readonly`. -/
inductive Descr where
  | notField
  | field (readonly : Bool)
  deriving DecidableEq, Repr

/-- An interface: its names, own and inherited, with their descriptions. -/
abbrev Iface := PyDict Name Descr

/-- The arguments of `ClassDirective.require` (metaconfigure.py:73-75).  `None` and an empty list
are not distinguished: the code only asks for their truth.  An element of `interface` and of
`setSchema` may be `None`. -/
structure Require where
  permission : Val
  attributes : List Name
  interface : List (Option Iface)
  likeClass : Option Key
  setAttributes : List Name
  setSchema : List (Option Iface)

/-- The subdirectives of the class directive. -/
inductive Sub where
  | require (r : Require)
  | allow (attributes : List Name) (interface : List (Option Iface))
  | implements (interface : List Iface)

/-- The subdirectives of the module directive. -/
inductive ModSub where
  | allow (attributes : List Name) (interface : List Iface)
  | require (permission : Val) (attributes : List Name) (interface : List Iface)

/-- A directive about a class or about a module. -/
inductive Directive where
  | cls (t : String) (sub : Sub)
  | mod (m : String) (sub : ModSub)

/-- An action: the callable with its arguments. -/
inductive Action where
  /-- `protectLikeUnto` (metaconfigure.py:100-106) -/
  | mimic (k like : Key)
  /-- `protectName` (metaconfigure.py:123-129), `protectModule` (213-231) -/
  | name (k : Key) (n : Name) (p : Val)
  /-- `protectSetAttribute` (metaconfigure.py:136-143, 151-155) -/
  | setAttr (k : Key) (n : Name) (p : Val)
  /-- `classImplements` (metaconfigure.py:58-63) -/
  | classImplements (k : Key) (i : Iface)
  /-- `provideInterface` (metaconfigure.py:64-69, 116-121, 156-161) -/
  | provideInterface (i : Iface)

/-- The object a key stands for. -/
def Key.val : Key → Val
  | .ty t => .type t
  | .mod m => .module m

/-- `bool(permission)` is false (metaconfigure.py:84). -/
def falsyPermission : Val → Bool
  | .none => true
  | .str _ s => s == ""
  | _ => false

/-- `sorted(interface.namesAndDescriptions(1))`, the names (metaconfigure.py:114), and
`sorted(schema)` (metaconfigure.py:148). -/
def Iface.sortedNames (i : Iface) : List Name := i.keys.mergeSort fun a b => decide (a ≤ b)

/-- `__protectByInterface` (metaconfigure.py:112-121). -/
def protectByInterface (k : Key) (i : Iface) (p : Val) : List Action :=
  i.sortedNames.map (fun n => .name k n p) ++ [.provideInterface i]

/-- `__protectNames` (metaconfigure.py:131-134). -/
def protectNames (k : Key) (l : List Name) (p : Val) : List Action := l.map fun n => .name k n p

/-- `__protectSetAttributes` (metaconfigure.py:136-143). -/
def protectSetAttributes (k : Key) (l : List Name) (p : Val) : List Action := l.map fun n => .setAttr k n p

/-- `IField.providedBy(field) and not field.readonly` (metaconfigure.py:150). -/
def writableField (i : Iface) (n : Name) : Bool :=
  match i.get? n with
  | some (.field readonly) => !readonly
  | _ => false

/-- `__protectSetSchema` (metaconfigure.py:145-161). -/
def protectSetSchema (k : Key) (i : Iface) (p : Val) : List Action :=
  (i.sortedNames.filter (writableField i)).map (fun n => .setAttr k n p) ++ [.provideInterface i]

/-- The loop over the schemas (metaconfigure.py:96-98): `sorted(None)` raises TypeError. -/
def protectSchemas (k : Key) (p : Val) : List (Option Iface) → List Action × Option Exn
  | [] => ([], none)
  | none :: _ => ([], some .typeError)
  | some i :: r =>
    let rest := protectSchemas k p r
    (protectSetSchema k i p ++ rest.1, rest.2)

/-- The loop over the interfaces (metaconfigure.py:88-91), which skips `None`. -/
def protectInterfaces (k : Key) (p : Val) : List (Option Iface) → List Action
  | [] => []
  | none :: r => protectInterfaces k p r
  | some i :: r => protectByInterface k i p ++ protectInterfaces k p r

/-- `__mimic` when a class is given (metaconfigure.py:77-78, 100-106). -/
def mimicActions (k : Key) : Option Key → List Action
  | none => []
  | some u => [.mimic k u]

/-- `ClassDirective.require` (metaconfigure.py:73-98): the actions emitted and the exception
raised, if any. -/
def emitRequire (k : Key) (r : Require) : List Action × Option Exn :=
  if r.interface.isEmpty && r.attributes.isEmpty && r.setAttributes.isEmpty && r.setSchema.isEmpty then
    if r.likeClass.isSome then (mimicActions k r.likeClass, none)
    else ([], some .configurationError)
  else if falsyPermission r.permission then (mimicActions k r.likeClass, some .configurationError)
  else
    let schemas := protectSchemas k r.permission r.setSchema
    (mimicActions k r.likeClass ++ protectInterfaces k r.permission r.interface
      ++ protectNames k r.attributes r.permission
      ++ protectSetAttributes k r.setAttributes r.permission ++ schemas.1, schemas.2)

/-- `PublicPermission` (metaconfigure.py:32), a string. -/
def publicPermission : Val := .str 0 zopePublic

/-- The subdirectives of the class directive: `require` (metaconfigure.py:73-98), `allow`
(108-110), `implements` (57-71). -/
def emitSub (k : Key) : Sub → List Action × Option Exn
  | .require r => emitRequire k r
  | .allow attributes interface => emitRequire k ⟨publicPermission, attributes, interface, none, [], []⟩
  | .implements l => (l.flatMap fun i => [.classImplements k i, .provideInterface i], none)

/-- One `for` loop of `_names` (metaconfigure.py:202-205, 207-210): yields the names not seen. -/
def unseen (seen : List Name) : List Name → List Name × List Name
  | [] => ([], seen)
  | n :: r =>
    if n ∈ seen then unseen seen r
    else
      let rest := unseen (n :: seen) r
      (n :: rest.1, rest.2)

/-- The outer loop of `_names` over the interfaces (metaconfigure.py:206). -/
def unseenInterfaces (seen : List Name) : List Iface → List Name
  | [] => []
  | i :: r =>
    let here := unseen seen i.keys
    here.1 ++ unseenInterfaces here.2 r

/-- `_names` (metaconfigure.py:200-210). -/
def directiveNames (attributes : List Name) (interface : List Iface) : List Name :=
  let here := unseen [] attributes
  here.1 ++ unseenInterfaces here.2 interface

/-- The module directives `allow` and `require` (metaconfigure.py:213-221, 224-231). -/
def emitModSub (k : Key) : ModSub → List Action
  | .allow attributes interface => (directiveNames attributes interface).map fun n => .name k n publicPermission
  | .require p attributes interface => (directiveNames attributes interface).map fun n => .name k n p

/-- What a directive emits. -/
def emitDirective : Directive → List Action × Option Exn
  | .cls t sub => emitSub (.ty t) sub
  | .mod m sub => (emitModSub (.mod m) sub, none)

/-- Reading a configuration: the first exception ends it. -/
def emitAll : List Directive → List Action × Option Exn
  | [] => ([], none)
  | d :: r =>
    let here := emitDirective d
    match here.2 with
    | some e => (here.1, some e)
    | none =>
      let rest := emitAll r
      (here.1 ++ rest.1, rest.2)

/-- Carrying out one action. -/
def runAction : Action → M A Unit
  | .mimic k like => protectLikeUnto k.val like.val
  | .name k n p => protectName k.val n p
  | .setAttr k n p => protectSetAttribute k.val n p
  | .classImplements _ _ => Pure.pure ()
  | .provideInterface _ => Pure.pure ()

/-- Carrying out the actions in order. -/
def runActions : List Action → M A Unit
  | [] => Pure.pure ()
  | a :: r => do
    runAction a
    runActions r

/-- Reading a configuration and, when that raises nothing, carrying out its actions. -/
def configure (l : List Directive) : M A Unit :=
  match (emitAll l).2 with
  | some e => M.throw e
  | none => runActions (emitAll l).1

end ZS
