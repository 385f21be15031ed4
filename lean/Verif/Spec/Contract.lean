import Verif.Source.Interfaces
import Verif.Source.CFiles

/-!
# Who declares which interface, and what is there to keep the promise

`claims` are the declarations of the files, with those which subclasses inherit; `methodsOf` and `attrsOf` what an
interface asks for, with what it inherits; `offers` the signature of what is found where the interface's method is
looked up. `compiled` says whether `Checker` is the class of the C file or `CheckerPy`
(checker.py:293, 518-525).
-/

namespace ZS.Contract

/-! ## The classes of the files -/

/-- The class a name stands for in a module: `Checker` is `CheckerPy` unless the C file takes its place
(checker.py:293, 518-525). -/
def resolve (compiled : Bool) (m n : String) : String :=
  if m = "checker" ∧ n = "Checker" ∧ compiled = false then "CheckerPy" else n

def findCls (m n : String) : Option Cls := Src.classes.find? fun c => c.mod == m && c.name == n

def basesOf (compiled : Bool) (m n : String) : List String :=
  match findCls m n with
  | some c => c.bases.map (resolve compiled m)
  | none => []

/-- The first head which is in no tail. -/
def goodHead (all : List (List String)) : List (List String) → Option String
  | [] => none
  | [] :: r => goodHead all r
  | (h :: _) :: r => if all.any (fun l => l.tail.contains h) then goodHead all r else some h

/-- The merge of Python's C3 order. -/
def merge : Nat → List (List String) → List String
  | 0, _ => []
  | n + 1, ls => match goodHead ls ls with
    | none => []
    | some h => h :: merge n (ls.map fun l => if l.head? = some h then l.tail else l)

/-- The order in which a class and its bases are searched. -/
def mro (compiled : Bool) (m : String) : Nat → String → List String
  | 0, _ => []
  | k + 1, n =>
    let bs := basesOf compiled m n
    n :: merge 20 (bs.map (mro compiled m k) ++ [bs])

/-- The required arguments of the `PyArg_ParseTuple` which a C function begins with, and all of them. -/
def parsed : CS.S → Option (Nat × Nat)
  | .parse _ r outs _ _ => some (r, outs.length)
  | .set _ _ rest => parsed rest
  | _ => none

/-- The C functions of the table which take a tuple of arguments. -/
def cBody (f : String) : Option CS.S :=
  if f = "Checker_check" then some CS.Src.Checker_check.body
  else if f = "Checker_check_setattr" then some CS.Src.Checker_check_setattr.body else none

/-- A line of a method table: `METH_O` is one argument by position, `METH_VARARGS` those of the
`PyArg_ParseTuple`. -/
def cLine (m : String) : List CS.Entry → Option Sig
  | .text n :: .ref f :: .ref k :: _ =>
    if n ≠ m then none
    else if k = "METH_O" then some ⟨1, [], 1, false⟩
    else if k = "METH_VARARGS" then ((cBody f).bind parsed).map fun p => ⟨p.2, [], p.1, false⟩
    else none
  | _ => none

/-- The methods of the class of the C file (_zope_security_checker.c:318-335). -/
def cMethod (m : String) : Option Sig := CS.Src.Checker_methods_c.findSome? (cLine m)

/-- Is this the class of the C file? -/
def isC (compiled : Bool) (m n : String) : Bool := compiled && m == "checker" && n == "Checker"

/-- Does the body of a class, by itself, give the attribute? -/
def gives (compiled : Bool) (m n x : String) : Bool :=
  if isC compiled m n then (cMethod x).isSome
  else match findCls m n with
    | some c => (c.methods.map Prod.fst).contains x || c.attrs.contains x
    | none => false

/-- The signature of a function of the body of a class, without `self`. -/
def own (compiled : Bool) (m n x : String) : Option Sig :=
  if isC compiled m n then cMethod x
  else (findCls m n).bind fun c =>
    ((c.methods.lookup x).orElse fun _ => (c.aliases.lookup x).bind fun y => c.methods.lookup y).map Sig.bound

/-- The signature of a method of the instances of a class. -/
def method (compiled : Bool) (m n x : String) : Option Sig :=
  ((mro compiled m 8 n).find? fun b => gives compiled m b x).bind fun b => own compiled m b x

def function (m n : String) : Option Sig :=
  (Src.functions.find? fun f => f.mod == m && f.name == n).map Fun.sig

/-! ## What is declared, what is asked for, what is there -/

def findIface (i : String) : Option Iface := Src.ifaces.find? fun x => x.name == i

/-- The methods of an interface, with those of its bases. -/
def methodsOf : Nat → String → List (String × Sig)
  | 0, _ => []
  | k + 1, i => match findIface i with
    | some x => x.methods ++ (x.bases.map (methodsOf k)).flatten
    | none => []

/-- The attributes of an interface, with those of its bases. -/
def attrsOf : Nat → String → List String
  | 0, _ => []
  | k + 1, i => match findIface i with
    | some x => x.attrs ++ (x.bases.map (attrsOf k)).flatten
    | none => []

/-- The declarations of a class are those of its subclasses too. -/
def inherited (compiled : Bool) : List Decl :=
  Src.classes.flatMap fun c => Src.declared.filterMap fun d => match d with
    | .cls m n i =>
      if m = c.mod ∧ (mro compiled m 8 c.name).tail.contains (resolve compiled m n) = true then some (.cls m c.name i)
      else none
    | _ => none

/-- The declarations about interfaces of this package (`IVocabularyFactory` and `IFromUnicode` are of zope.schema). -/
def claims (compiled : Bool) : List Decl :=
  (Src.declared ++ inherited compiled).filter fun d => (findIface d.iface).isSome

/-- What is there for a method of a declared interface. A call of a class goes to its `__init__`. -/
def offers (compiled : Bool) : Decl → String → Option Sig
  | .cls m n _, x => method compiled m (resolve compiled m n) x
  | .obj m n _, x =>
    if x = "__call__" then
      match findCls m n with
      | some _ => method compiled m n "__init__"
      | none => function m n
    else none
  | .mod m _, x => function m x

/-- The methods of the declared interfaces whose parameters can be given by the names which the interface has for
them. -/
def byName (compiled : Bool) : Decl → List String
  | .cls "checker" "CheckerPy" _ => ["proxy", "permission_id", "setattr_permission_id"]
  | .cls "checker" _ _ => if compiled then [] else ["proxy", "permission_id", "setattr_permission_id"]
  | .cls "simplepolicies" _ _ => ["add", "remove", "checkPermission"]
  | .obj "checker" _ _ => ["__call__"]
  | .mod _ _ => ["getSecurityPolicy", "setSecurityPolicy", "queryInteraction", "getInteraction", "endInteraction"]
  | _ => []

end ZS.Contract
