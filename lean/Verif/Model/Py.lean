/-!
# Python values, exceptions and dictionaries

The part of Python's data model that zope.security relies on.  Nothing in this file is
specific to a function of the package; it is the common vocabulary of the model.
-/

namespace ZS

/-- Attribute names (Python `str` used as a name). -/
abbrev Name := String

/-- Python values.

* identity (`is`) is equality of `Val`: everything that has an identity of its own carries
  an identifier;
* strings carry an address, so that two equal strings need not be identical
  (checker.py:378 and :420 compare permissions with `is`);
* `checker` is an instance of `zope.security.checker.Checker` (checker.py:199-290), whose two
  permission dictionaries are *references* into the dictionary heap of the state;
* `combined` is a `CombinedChecker` (checker.py:532-588): the two dictionaries it inherited
  from its first checker and a reference to the second checker;
* `proxy` is a security proxy (proxy.py:69-254, _proxy.c): wrapped object and checker.  Any
  value other than `None` may serve as the checker of a proxy;
* `deco` is an instance of a subclass of `SecurityCheckerDecoratorBase` (decorator.py:61-64)
  or of `LocationProxy` (decorator.py:72-81): class and decorated object. -/
inductive Val where
  | none
  | notImpl
  | bool (b : Bool)
  | int (n : Int)
  | str (addr : Nat) (s : String)
  | obj (o : Nat)
  | type (t : String)
  | module (m : String)
  | fn (f : Nat)
  | noProxy
  | ix (i : Nat)
  | checker (id get set : Nat)
  | combined (id get set : Nat) (second : Val)
  | deco (id : Nat) (cls : String) (inner : Val)
  | proxy (id : Nat) (wrapped chk : Val)
  deriving DecidableEq, Repr, Inhabited

/-- Exceptions that the package raises or catches, as values (interfaces.py:81-121 for the
security ones, management.py:92-98 for `ExistingInteraction`).  Exceptions of application
code are `other`. -/
inductive Exn where
  | forbidden (name : Name) (object : Val)
  | unauthorized (object : Val) (name : Name) (permission : Val)
  | attributeError (name : Name)
  | typeError
  | valueError
  | keyError
  | indexError
  | duplication (v : Val)
  | duplicationName (n : Name)
  | noInteraction
  | existingInteraction
  | notImplementedError
  | configurationError
  | other (n : Nat)
  deriving DecidableEq, Repr

/-- `isinstance(e, AttributeError)`: `ForbiddenAttribute` is a subclass of `AttributeError`
(interfaces.py:113-121). -/
def Exn.isAttr : Exn → Bool
  | .forbidden _ _ => true
  | .attributeError _ => true
  | _ => false

/-- `isinstance(e, ForbiddenAttribute)`. -/
def Exn.isForbidden : Exn → Bool
  | .forbidden _ _ => true
  | _ => false

/-- `isinstance(e, Unauthorized)`. -/
def Exn.isUnauthorized : Exn → Bool
  | .unauthorized _ _ _ => true
  | _ => false

/-- `isinstance(e, ValueError)`: `ExistingInteraction` is a `ValueError`
(management.py:92-98). -/
def Exn.isValueError : Exn → Bool
  | .valueError => true
  | .existingInteraction => true
  | _ => false

/-- The result of running Python code: a value, an exception, or non-termination (only the
`while` loop of `selectChecker` can run for ever). -/
inductive Res (α : Type) where
  | ok (a : α)
  | err (e : Exn)
  | diverge
  deriving DecidableEq, Repr

/-- Python dictionaries: association lists in insertion order. -/
abbrev PyDict (κ ν : Type) := List (κ × ν)

namespace PyDict
variable {κ ν : Type} [DecidableEq κ]

/-- `d.get(k)` with `none` for a missing key. -/
def get? : PyDict κ ν → κ → Option ν
  | [], _ => Option.none
  | (k, v) :: r, x => if k = x then some v else get? r x

/-- `d[k] = v`: replaces in place, appends when new. -/
def set : PyDict κ ν → κ → ν → PyDict κ ν
  | [], x, w => [(x, w)]
  | (k, v) :: r, x, w => if k = x then (k, w) :: r else (k, v) :: set r x w

/-- `del d[k]` (the caller checks membership for `KeyError`). -/
def del (d : PyDict κ ν) (x : κ) : PyDict κ ν := d.filter (fun p => decide (p.1 ≠ x))

/-- `k in d`. -/
def mem (d : PyDict κ ν) (x : κ) : Bool := (d.get? x).isSome

/-- `d.update(e)`. -/
def update (d e : PyDict κ ν) : PyDict κ ν := e.foldl (fun d p => d.set p.1 p.2) d

/-- The keys in insertion order. -/
def keys (d : PyDict κ ν) : List κ := d.map Prod.fst

end PyDict

/-- Registry keys: `_checkers` (checker.py:505) is keyed by types and, through
`protectModule`, by modules. -/
inductive Key where
  | ty (t : String)
  | mod (m : String)
  deriving DecidableEq, Repr

/-- `CheckerPublic` (checker.py:348-359): a proxied `Global` object whose checker is checker 0
with permission dictionaries 0 (read) and 1 (write). -/
def publicV : Val := .proxy 0 (.obj 0) (.checker 0 0 1)

/-- `_defaultChecker = Checker({})` (checker.py:507): checker 1, dictionaries 2 and 3. -/
def defaultChecker : Val := .checker 1 2 3

/-- `PUBLIC_PERMISSION_NAME` (interfaces.py:70). -/
def zopePublic : String := "zope.Public"

/-- `isinstance(v, Checker)` for the package's own checker classes. -/
def Val.isChecker : Val → Bool
  | .checker .. => true
  | .combined .. => true
  | _ => false

/-- `isinstance(v, Proxy)` for security proxies. -/
def Val.isProxy : Val → Bool
  | .proxy .. => true
  | _ => false

/-- Values of Python's own constant types (and the package's `NoProxy`, a bare `object()`). -/
def Val.isBasic : Val → Bool
  | .none | .notImpl | .bool _ | .int _ | .str .. | .noProxy => true
  | _ => false

/-- A name beginning with two underscores (_zope_security_checker.c:163-165). -/
def isDunder (n : Name) : Bool :=
  match n.toList with
  | '_' :: '_' :: _ => true
  | _ => false

end ZS
