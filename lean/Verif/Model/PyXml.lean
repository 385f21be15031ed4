import Verif.Model.PyZcml
import Verif.Source.Schemas
import Verif.Source.Files

/-!
# From the elements of a ZCML file to the calls of the handlers

meta.zcml says which schema and which handler a directive has; the schemas are those of metadirectives.py and zcml.py;
the handlers are run from the source of zcml.py and metaconfigure.py.  What lies between is zope.configuration's, outside
`/repo`: the meta-directives, `toargs`, the conversion by the fields, and the stack of contexts.  It is modelled after its
`zopeconfigure`, `config.py` and `fields.py`:

* `toargs` goes through the fields of the schema in order; an attribute that is there is converted, a required one that is not
  there and an attribute without a field are errors; the handler gets the values as keyword arguments;
* of a complex directive an object is made at the beginning, its methods are called for the elements inside and the object
  itself at the end; the elements inside are told by their names, whatever the namespace;
* a grouping directive makes a context with the values as attributes.

The table of directives is there from the beginning.  The element `include` has the elements of the file as children, if this is the
first inclusion; the context of the inclusion and that of the root element of the file are one.
-/

namespace ZS.PyC
open ZS

/-! ## meta.zcml -/

/-- How a directive is handled; a complex one has subdirectives with their schemas. -/
inductive XSort where
  | simple
  | grouping
  | complex (subs : List (String × String))
  deriving DecidableEq, Repr

/-- What meta.zcml says about a directive. -/
structure XDef where
  ns : String
  name : String
  schema : String
  handler : String
  sort : XSort
  deriving DecidableEq, Repr

/-- An attribute of an element. -/
def attr? (n : String) : List (String × String) → Option String
  | [] => none
  | (k, x) :: r => if k = n then some x else attr? n r

/-- A dotted name in a file of the package. -/
def absolute (d : String) : String := if d.toList.head? = some '.' then "zope.security" ++ d else d

/-- The namespace of meta-directives. -/
abbrev metaNs : String := "http://namespaces.zope.org/meta"

/-- A directive in a namespace. -/
def xdef (ns : Option String) (sort : XSort) (a : List (String × String)) : Option XDef :=
  match ns, attr? "name" a, attr? "schema" a, attr? "handler" a with
  | some ns, some n, some s, some h => some ⟨ns, n, absolute s, absolute h, sort⟩
  | _, _, _, _ => none

/-- All of them, if all are there. -/
def allSome {α : Type} : List (Option α) → Option (List α)
  | [] => some []
  | some x :: r => (allSome r).map (x :: ·)
  | none :: _ => none

/-- `meta:subdirective`. -/
def readSub : Xml → Option (String × String)
  | .el ns n a [] =>
    match attr? "name" a, attr? "schema" a with
    | some m, some s => if ns = metaNs ∧ n = "subdirective" then some (m, absolute s) else none
    | _, _ => none
  | _ => none

/-- A meta-directive that defines a directive; `outer` is the namespace given by `meta:directives`. -/
def readDef (outer : Option String) : Xml → Option XDef
  | .el ns n a ch =>
    let inner := match attr? "namespace" a with
      | some x => some x
      | none => outer
    if ns = metaNs then
      if n = "complexDirective" then
        match allSome (ch.map readSub) with
        | some subs => xdef inner (.complex subs) a
        | none => none
      else if ch.isEmpty then
        if n = "directive" then xdef inner .simple a
        else if n = "groupingDirective" then xdef inner .grouping a
        else none
      else none
    else none

/-- The meta-directives at the top of a file. -/
def readDefs : Xml → Option (List XDef)
  | .el ns n a ch =>
    if ns = metaNs ∧ n = "directives" then allSome (ch.map (readDef (attr? "namespace" a)))
    else (readDef none (.el ns n a ch)).map ([·])

/-- The directives a file defines. -/
def readMeta : Xml → Option (List XDef)
  | .el _ _ _ ch => (allSome (ch.map readDefs)).map List.flatten

/-- The directives of meta.zcml. -/
def directives : List XDef := (readMeta Src.metaZcml).getD []

/-- The directive of a name in a namespace. -/
def findDef (ns n : String) : List XDef → Option XDef
  | [] => none
  | d :: r => if d.ns = ns ∧ d.name = n then some d else findDef ns n r

/-- The schema of a name. -/
def schemaOf (l : List (String × List SField)) (n : String) : Option (List SField) :=
  match l with
  | [] => none
  | (k, s) :: r => if k = n then some s else schemaOf r n

/-- The schema of a subdirective. -/
def subSchema (n : String) : List (String × String) → Option String
  | [] => none
  | (k, s) :: r => if k = n then some s else subSchema n r

/-! ## Fields -/

/-- What is outside: ids, the parts of a text between white space, Python identifiers, what a dotted name
refers to, message ids, and the directives of other packages, of which nothing is modelled. -/
structure Fields where
  id : IdField
  split : String → List String
  identifier : String → Bool
  resolve : String → Option PV
  message : String → String
  other : String → String → Bool

/-- The keywords of Python. -/
def keywords : List String :=
  ["False", "None", "True", "and", "as", "assert", "async", "await", "break", "class", "continue", "def", "del", "elif", "else",
   "except", "finally", "for", "from", "global", "if", "import", "in", "is", "lambda", "nonlocal", "not", "or", "pass", "raise",
   "return", "try", "while", "with", "yield"]

/-- The attribute for a field: an underscore after a keyword is left out. -/
def attrName (n : Name) : String :=
  let b := String.ofList n.toList.dropLast
  if n.toList.getLast? = some '_' ∧ b ∈ keywords then b else n

/-- `GlobalObject.fromUnicode`. -/
def xglobal (F : Fields) (t : String) : M Reading PV :=
  if F.id.strip t = "*" then pure (.v .none)
  else
    match F.resolve (F.id.strip t) with
    | some x => pure x
    | none => M.throw .configurationError

/-- An item of `Tokens`.  `None`, which is what `*` stands for, is not valid as an item. -/
def xitem (F : Fields) (kind : String) (t : String) : M Reading PV :=
  if kind = "zope.configuration.fields.PythonIdentifier" then
    if F.identifier t then pure (strV t) else M.throw .configurationError
  else if kind = "zope.configuration.fields.GlobalInterface" then
    if t = "*" then M.throw .configurationError
    else
      match F.resolve t with
      | some (.iface i) => pure (.iface i)
      | _ => M.throw .configurationError
  else stuck

/-- All items. -/
def xitems (F : Fields) (kind : String) : List String → M Reading (List PV)
  | [] => pure []
  | t :: r => do
    let x ← xitem F kind t
    let l ← xitems F kind r
    pure (x :: l)

/-- `fromUnicode` of a field: that of `Permission` is run from the source of zcml.py. -/
def xconvert (F : Fields) (f : SField) (t : String) : M Reading PV :=
  if f.kind = "zope.security.zcml.Permission" then run (zcmlLang F.id) Src.Zcml.Permission.fromUnicode [.sym "self", strV t]
  else if f.kind = "zope.schema.Id" then
    if F.id.valid (F.id.strip t) then pure (strV (F.id.strip t)) else M.throw .configurationError
  else if f.kind = "zope.configuration.fields.MessageID" then pure (strV (F.message t))
  else if f.kind = "zope.configuration.fields.GlobalObject" then xglobal F t
  else if f.kind = "zope.configuration.fields.Tokens" then
    match f.item with
    | some k => do
      let l ← xitems F k (F.split t)
      pure (.list l)
    | none => stuck
  else stuck

/-- `toargs`: the keyword arguments. -/
def toargs (conv : SField → String → M Reading PV) : List SField → List (String × String) → M Reading (List (Name × PV))
  | [], data => if data.isEmpty then pure [] else M.throw .configurationError
  | f :: r, data =>
    match attr? (attrName f.name) data with
    | some t => do
      let x ← conv f t
      let l ← toargs conv r (data.filter fun p => decide (p.1 ≠ attrName f.name))
      pure ((f.name, x) :: l)
    | none => if f.required then M.throw .configurationError else toargs conv r data

/-- The keyword arguments by the schema of a name. -/
def xargs (F : Fields) (schema : String) (a : List (String × String)) : M Reading (List (Name × PV)) :=
  match schemaOf Src.schemas schema with
  | some fs => toargs (xconvert F) fs a
  | none => stuck

/-! ## Elements -/

/-- What is met while the elements of a file are gone through. -/
inductive XTok where
  | enter (file : Option String)
  | group (d : XDef) (a : List (String × String))
  | leave
  | simple (d : XDef) (a : List (String × String))
  | complex (d : XDef) (a : List (String × String))
  | sub (d : XDef) (schema name : String) (a : List (String × String))
  | done (d : XDef)
  | wrong

/-- The elements inside a complex directive: no others may be inside them. -/
def flatSub (d : XDef) (subs : List (String × String)) : Xml → List XTok
  | .el _ n a [] =>
    match subSchema n subs with
    | some s => [.sub d s n a]
    | none => [.wrong]
  | .el _ _ _ (_ :: _) => [.wrong]

/-- All of them. -/
def flatSubs (d : XDef) (subs : List (String × String)) : List Xml → List XTok
  | [] => []
  | x :: r => flatSub d subs x ++ flatSubs d subs r

mutual

/-- An element with what is inside.  `configure` and `include` are zope.configuration's, in any namespace. -/
def flat (F : Fields) (T : List XDef) : Xml → List XTok
  | .el ns n a ch =>
    if n = "configure" then .enter none :: flats F T ch ++ [.leave]
    else if n = "include" then .enter (attr? "file" a) :: flats F T ch ++ [.leave]
    else
      match findDef ns n T with
      | none => if F.other ns n then [] else [.wrong]
      | some d =>
        match d.sort with
        | .simple => if ch.isEmpty then [.simple d a] else [.wrong]
        | .grouping => .group d a :: flats F T ch ++ [.leave]
        | .complex subs => .complex d a :: flatSubs d subs ch ++ [.done d]

/-- Several elements. -/
def flats (F : Fields) (T : List XDef) : List Xml → List XTok
  | [] => []
  | x :: r => flat F T x ++ flats F T r

end

/-! ## Calling the handlers -/

/-- A context: its include path and its own attribute `module`, which may be missing. -/
structure XFrame where
  path : List String
  module : Option PV

/-- The include path of the innermost context. -/
def pathOf : List XFrame → List String
  | [] => []
  | c :: _ => c.path

/-- `context.module`: that of the innermost context that has one. -/
def moduleOf : List XFrame → Option PV
  | [] => none
  | c :: r =>
    match c.module with
    | some m => some m
    | none => moduleOf r

/-- The language of `allow` and `require` of metaconfigure.py. -/
def modLang (N : Naming) (fs : List XFrame) : Lang Reading :=
  match moduleOf fs with
  | some (.v m) => metaLang { N with module := m } 4
  | _ => { metaLang N 4 with getattr := fun o n =>
      match o with
      | .sym c => if c = "_context" ∧ n = "module" then M.throw (.attributeError "module") else mgetattr N o n
      | o => mgetattr N o n }

/-- The functions of zcml.py and metaconfigure.py by their full names. -/
def zcmlFns : List (Name × Fn) :=
  [("zope.security.zcml.permission", Src.Zcml.permission), ("zope.security.zcml.securityPolicy", Src.Zcml.securityPolicy),
   ("zope.security.zcml.redefinePermission", Src.Zcml.redefinePermission)]

/-- Those about modules. -/
def modFns : List (Name × Fn) :=
  [("zope.security.metaconfigure.allow", Src.Metaconfigure.allow), ("zope.security.metaconfigure.require", Src.Metaconfigure.require)]

/-- `handler(context, **kws)` of a simple directive. -/
def xcall (F : Fields) (N : Naming) (fs : List XFrame) (handler : String) (kws : List (Name × PV)) : M Reading PV :=
  match fnOf zcmlFns handler with
  | some f => runIn (zcmlLang F.id) f [] [.sym "_context"] kws
  | none =>
    match fnOf modFns handler with
    | some f => runIn (modLang N fs) f [] [.sym "_context"] kws
    | none => stuck

/-- The class of a complex directive: its methods. -/
def handlerClass (handler : String) : Option (List (Name × Fn)) :=
  if handler = "zope.security.metaconfigure.ClassDirective" then some Src.Metaconfigure.ClassDirective.methods else none

/-- A method of the object of a complex directive. -/
def xmethod (N : Naming) (handler : String) (m : Name) (args : List PV) (kws : List (Name × PV)) : M Reading PV :=
  match handlerClass handler with
  | some l =>
    match fnOf l m with
    | some f => runIn (metaLang N 4) f [] (.sym "self" :: args) kws
    | none => stuck
  | none => stuck

/-- The actions that `x` emits, with the include path of the context. -/
def placing (fs : List XFrame) (x : M Reading (List XFrame)) : M Reading (List XFrame × List (List String × Raw)) := do
  M.modify fun s => { s with app := { s.app with actions := [] } }
  let fs' ← x
  let s ← M.get
  pure (fs', s.app.actions.map fun a => (pathOf fs, a))

/-- A context more. -/
def xpush : M Reading Unit := M.modify fun s => { s with app := { s.app with maps := none :: s.app.maps } }

/-- A context less. -/
def xpop : M Reading Unit := M.modify fun s => { s with app := { s.app with maps := s.app.maps.tail } }

/-- One step. -/
def runTok (F : Fields) (N : Naming) (fs : List XFrame) : XTok → M Reading (List XFrame × List (List String × Raw))
  | .enter file => placing fs do
    xpush
    pure (⟨pathOf fs ++ file.toList, none⟩ :: fs)
  | .group d a => placing fs do
    let kws ← xargs F d.schema a
    xpush
    if d.handler = "zope.configuration.config.GroupingContextDecorator" then pure (⟨pathOf fs, takeKw "module" kws⟩ :: fs) else stuck
  | .leave => placing fs do
    xpop
    match fs with
    | _ :: c :: r => pure (c :: r)
    | _ => M.throw .configurationError
  | .simple d a => placing fs do
    let kws ← xargs F d.schema a
    let _ ← xcall F N fs d.handler kws
    pure fs
  | .complex d a => placing fs do
    let kws ← xargs F d.schema a
    let _ ← xmethod N d.handler "__init__" [.sym "_context"] kws
    pure fs
  | .sub d s n a => placing fs do
    let kws ← xargs F s a
    let _ ← xmethod N d.handler n [.sym "_context"] kws
    pure fs
  | .done d => placing fs do
    let r ← xmethod N d.handler "__call__" [] []
    let t ← mtruth r
    if t then stuck else pure fs
  | .wrong => M.throw .configurationError

/-- All steps: the actions. -/
def runToks (F : Fields) (N : Naming) : List XFrame → List XTok → M Reading (List XFrame × List (List String × Raw))
  | fs, [] => pure (fs, [])
  | fs, t :: r => do
    let p ← runTok F N fs t
    let q ← runToks F N p.1 r
    pure (q.1, p.2 ++ q.2)

end ZS.PyC
