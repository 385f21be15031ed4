import Verif.Model.PyXml

/-!
# What a ZCML file says

Stated without meta.zcml, schemas and handlers: which elements with which attributes there are, and which
events of `Model/File.lean` they mean.  `none`: the file is not of this form (it is wrong, or has something about which nothing is said
here: factories, and classes, modules and policies that are something else).
-/

namespace ZS.Spec
open ZS ZS.PyC

/-- The namespace of the directives. -/
abbrev zopeNs : String := "http://namespaces.zope.org/zope"

/-- There are no other attributes. -/
abbrev NoOther (l : List String) (a : List (String × String)) : Prop := ∀ p ∈ a, p.1 ∈ l

/-- Names between white space; nothing is no names. -/
def namesIn (F : Fields) : Option String → Option (List Name)
  | none => some []
  | some t => if (F.split t).all F.identifier then some (F.split t) else none

/-- An interface. -/
def interfaceIn (F : Fields) (t : String) : Option Iface :=
  if t = "*" then none
  else
    match F.resolve t with
    | some (.iface i) => some i
    | _ => none

/-- Interfaces between white space; nothing is no interfaces. -/
def interfacesIn (F : Fields) : Option String → Option (List Iface)
  | none => some []
  | some t => (F.split t).mapM (interfaceIn F)

/-- Any object. -/
def objectIn (F : Fields) (t : String) : Option PV :=
  if F.id.strip t = "*" then some (.v .none) else F.resolve (F.id.strip t)

/-- A class. -/
def classIn (F : Fields) : Option String → Option String
  | some t =>
    match objectIn F t with
    | some (.v (.type c)) => some c
    | _ => none
  | none => none

/-- A module. -/
def moduleIn (F : Fields) : Option String → Option String
  | some t =>
    match objectIn F t with
    | some (.v (.module m)) => some m
    | _ => none
  | none => none

/-- A security policy. -/
def policyIn (F : Fields) : Option String → Option Policy
  | some t =>
    match objectIn F t with
    | some (.policy p) => some p
    | _ => none
  | none => none

/-- A class or module, or nothing. -/
def likeIn (F : Fields) : Option String → Option (Option Key)
  | none => some none
  | some t =>
    match objectIn F t with
    | some (.v .none) => some none
    | some (.v (.type c)) => some (some (.ty c))
    | some (.v (.module m)) => some (some (.mod m))
    | _ => none

/-- `require` about a class. -/
def requireEvent (F : Fields) (t : String) (a : List (String × String)) : Option Ev :=
  if NoOther ["permission", "attributes", "set_attributes", "interface", "set_schema", "like_class"] a then
    match namesIn F (a.lookup "attributes"), interfacesIn F (a.lookup "interface"), likeIn F (a.lookup "like_class"),
      namesIn F (a.lookup "set_attributes"), interfacesIn F (a.lookup "set_schema") with
    | some x, some y, some l, some z, some w =>
      some (.cls t (.require ⟨a.lookup "permission", x, y.map some, l, z, w.map some⟩))
    | _, _, _, _, _ => none
  else none

/-- `allow` about a class. -/
def allowEvent (F : Fields) (t : String) (a : List (String × String)) : Option Ev :=
  if NoOther ["attributes", "interface"] a then
    match namesIn F (a.lookup "attributes"), interfacesIn F (a.lookup "interface") with
    | some x, some y => some (.cls t (.allow x (y.map some)))
    | _, _ => none
  else none

/-- `implements`. -/
def implementsEvent (F : Fields) (t : String) (a : List (String × String)) : Option Ev :=
  if NoOther ["interface"] a ∧ (a.lookup "interface").isSome then
    match interfacesIn F (a.lookup "interface") with
    | some y => some (.cls t (.implements y))
    | none => none
  else none

/-- The elements inside `class`, in any namespace. -/
def subEvent (F : Fields) (t : String) : Xml → Option Ev
  | .el _ n a [] =>
    if n = "require" then requireEvent F t a
    else if n = "allow" then allowEvent F t a
    else if n = "implements" then implementsEvent F t a
    else none
  | _ => none

/-- All of them. -/
def subEvents (F : Fields) (t : String) : List Xml → Option (List Ev)
  | [] => some []
  | x :: r =>
    match subEvent F t x, subEvents F t r with
    | some e, some l => some (e :: l)
    | _, _ => none

/-- `allow` about a module. -/
def modAllowEvent (F : Fields) (m : Option String) (a : List (String × String)) : Option Ev :=
  if NoOther ["attributes", "interface"] a then
    match m, namesIn F (a.lookup "attributes"), interfacesIn F (a.lookup "interface") with
    | some m, some x, some y => some (.mod m (.allow x y))
    | _, _, _ => none
  else none

/-- `require` about a module: interfaces cannot be given. -/
def modRequireEvent (F : Fields) (m : Option String) (a : List (String × String)) : Option Ev :=
  if NoOther ["permission", "attributes"] a then
    match m, a.lookup "permission", namesIn F (a.lookup "attributes") with
    | some m, some p, some x => some (.mod m (.require p x []))
    | _, _, _ => none
  else none

/-- `permission`. -/
def permissionEvent (a : List (String × String)) : Option Ev :=
  if NoOther ["id", "title", "description"] a then
    match a.lookup "id", a.lookup "title" with
    | some i, some _ => some (.permission i)
    | _, _ => none
  else none

/-- `redefinePermission`. -/
def redefineEvent (a : List (String × String)) : Option Ev :=
  if NoOther ["from", "to"] a then
    match a.lookup "from", a.lookup "to" with
    | some x, some y => some (.redefine x y)
    | _, _ => none
  else none

/-- `securityPolicy`. -/
def policyEvent (F : Fields) (a : List (String × String)) : Option Ev :=
  if NoOther ["component"] a then
    match policyIn F (a.lookup "component") with
    | some p => some (.policy p)
    | none => none
  else none

/-- The directives with nothing inside. -/
def plainEvent (F : Fields) (m : Option String) (ns n : String) (a : List (String × String)) : Option (List Ev) :=
  if ns = zopeNs ∧ n = "permission" then (permissionEvent a).map ([·])
  else if ns = zopeNs ∧ n = "securityPolicy" then (policyEvent F a).map ([·])
  else if ns = metaNs ∧ n = "redefinePermission" then (redefineEvent a).map ([·])
  else if ns = zopeNs ∧ n = "allow" then (modAllowEvent F m a).map ([·])
  else if ns = zopeNs ∧ n = "require" then (modRequireEvent F m a).map ([·])
  else if F.other ns n then some []
  else none

mutual

/-- What an element says, in the module `m`, if it is in one. -/
def events (F : Fields) (m : Option String) : Xml → Option (List Ev)
  | .el ns n a ch =>
    if n = "configure" then
      match eventss F m ch with
      | some l => some (.enter none :: l ++ [.leave])
      | none => none
    else if n = "include" then
      match eventss F m ch with
      | some l => some (.enter (a.lookup "file") :: l ++ [.leave])
      | none => none
    else if ns = zopeNs ∧ n = "class" then
      if NoOther ["class"] a then
        match classIn F (a.lookup "class") with
        | some t => subEvents F t ch
        | none => none
      else none
    else if ns = zopeNs ∧ n = "module" then
      if NoOther ["module"] a then
        match moduleIn F (a.lookup "module") with
        | some m' =>
          match eventss F (some m') ch with
          | some l => some (.enter none :: l ++ [.leave])
          | none => none
        | none => none
      else none
    else if ch.isEmpty then plainEvent F m ns n a
    else none

/-- What several elements say. -/
def eventss (F : Fields) (m : Option String) : List Xml → Option (List Ev)
  | [] => some []
  | x :: r =>
    match events F m x, eventss F m r with
    | some l, some l' => some (l ++ l')
    | _, _ => none

end

/-! ## What can be written at all -/

/-- The attributes that may be given and those that must be given are as they should be. -/
def Proper (l : List String × List String) (a : List (String × String)) : Prop := NoOther l.1 a ∧ ∀ n ∈ l.2, ∃ p ∈ a, p.1 = n

/-- The elements inside `class`: the attributes they may have and those they must have. -/
def insideClass (n : String) : Option (List String × List String) :=
  if n = "require" then some (["permission", "attributes", "set_attributes", "interface", "set_schema", "like_class"], [])
  else if n = "allow" then some (["attributes", "interface"], [])
  else if n = "implements" then some (["interface"], ["interface"])
  else if n = "factory" then some (["id", "title", "description"], [])
  else none

/-- The directives with nothing inside. -/
def plainDirective (ns n : String) : Option (List String × List String) :=
  if ns = zopeNs ∧ n = "permission" then some (["id", "title", "description"], ["id", "title"])
  else if ns = zopeNs ∧ n = "securityPolicy" then some (["component"], ["component"])
  else if ns = metaNs ∧ n = "redefinePermission" then some (["from", "to"], ["from", "to"])
  else if ns = zopeNs ∧ n = "allow" then some (["attributes", "interface"], [])
  else if ns = zopeNs ∧ n = "require" then some (["permission", "attributes"], ["permission"])
  else none

/-- An element inside `class` that can be there. -/
def knownSub : Xml → Prop
  | .el _ n a [] => ∃ l, insideClass n = some l ∧ Proper l a
  | _ => False

mutual

/-- An element of which everything is known: the directive, the attributes, what is inside. -/
def known (F : Fields) : Xml → Prop
  | .el ns n a ch =>
    if n = "configure" ∨ n = "include" then knowns F ch
    else if ns = zopeNs ∧ n = "class" then Proper (["class"], ["class"]) a ∧ ∀ x ∈ ch, knownSub x
    else if ns = zopeNs ∧ n = "module" then Proper (["module"], ["module"]) a ∧ knowns F ch
    else
      match plainDirective ns n with
      | some l => Proper l a ∧ ch = []
      | none => F.other ns n = true

/-- Several. -/
def knowns (F : Fields) : List Xml → Prop
  | [] => True
  | x :: r => known F x ∧ knowns F r

end

end ZS.Spec
