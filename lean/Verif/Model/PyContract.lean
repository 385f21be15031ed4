import Mathlib.Data.List.Basic
import Mathlib.Data.List.Nodup

/-!
# Signatures, calls, interfaces and the classes which declare them

The signature of a function is the part of its `def` line which decides which calls Python lets through to its body:
how many parameters can be given by position only, the names of the others, how many of all have no default, and
whether there is a `*` parameter. A call is the number of arguments by position and the names of those by keyword. The
values of the arguments do not matter here.

Simplified: no keyword-only parameters and no `**`, neither in signatures nor in calls; the functions of the files
which have them are left out of Source/Interfaces.lean, and no interface has such a method.
-/

namespace ZS.Contract

/-- The parameters of a function. -/
structure Sig where
  /-- how many come first and are given by position only; the functions of a C file have no others -/
  only : Nat
  /-- the names of the others -/
  names : List String
  /-- how many, of all, have no default -/
  required : Nat
  /-- is there a `*` parameter? -/
  star : Bool
  deriving DecidableEq, Repr

/-- The arguments of a call. -/
structure Call where
  pos : Nat
  kws : List String
  deriving DecidableEq, Repr

/-- Python's binding of arguments to parameters succeeds (and does not raise `TypeError`). -/
def Sig.Accepts (s : Sig) (c : Call) : Prop :=
  -- not too many by position
  (c.pos ≤ s.only + s.names.length ∨ s.star = true) ∧
  -- no keyword twice, none unknown, and none for a parameter which has its argument by position
  c.kws.Nodup ∧ (∀ k ∈ c.kws, k ∈ s.names.drop (c.pos - s.only)) ∧
  -- nothing required is missing
  min s.required s.only ≤ c.pos ∧ (∀ k ∈ (s.names.take (s.required - s.only)).drop (c.pos - s.only), k ∈ c.kws)

instance (s : Sig) (c : Call) : Decidable (s.Accepts c) := by unfold Sig.Accepts; infer_instance

/-- What is left when the first parameter is bound: `self`. -/
def Sig.bound (s : Sig) : Sig :=
  if s.only > 0 then ⟨s.only - 1, s.names, s.required - 1, s.star⟩
  else match s.names with
    | [] => s
    | _ :: r => ⟨0, r, s.required - 1, s.star⟩

/-- An interface: its name, its bases, its own methods and its own attributes. -/
structure Iface where
  name : String
  bases : List String
  methods : List (String × Sig)
  attrs : List String

/-- A class: its module, its name, its bases, the functions of its body, the assignments `x = y` of its body, and the
attributes which its body, or the unconditional part of its `__init__`, assigns. -/
structure Cls where
  mod : String
  name : String
  bases : List String
  methods : List (String × Sig)
  aliases : List (String × String)
  attrs : List String

/-- A function of a module. -/
structure Fun where
  mod : String
  name : String
  sig : Sig

/-- A declaration: the instances of a class provide an interface (`implementer`, `classImplements`); an object does
(`provider`, `directlyProvides`); a module does (`moduleProvides`). -/
inductive Decl
  | cls (mod name iface : String)
  | obj (mod name iface : String)
  | mod (mod iface : String)
  deriving DecidableEq, Repr

def Decl.iface : Decl → String
  | .cls _ _ i => i
  | .obj _ _ i => i
  | .mod _ i => i

end ZS.Contract
