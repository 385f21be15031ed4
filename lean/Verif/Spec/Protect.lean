import Verif.Model.Py

/-!
# Vocabulary for declarations

What the declaration calls mean, without reference to how they are carried out.
-/

namespace ZS.Spec

/-- A declaration: the class or module, whether it is about reading or writing, name, permission. -/
structure Decl where
  key : Key
  write : Bool
  name : Name
  perm : Val
  deriving DecidableEq, Repr

/-- The requirement a declared permission stands for: the string `zope.Public` stands for
`CheckerPublic`, and `None` is no declaration. -/
inductive Means : Val → Option Val → Prop
  | isPublic (a : Nat) : Means (.str a "zope.Public") (some publicV)
  | isNone : Means .none none
  | other (p : Val) : (∀ a, p ≠ .str a "zope.Public") → p ≠ .none → Means p (some p)

/-- The last declaration of a history for a class, kind and name. -/
def Last (h : List Decl) (k : Key) (w : Bool) (n : Name) (p : Val) : Prop :=
  ∃ h1 h2, h = h1 ++ ⟨k, w, n, p⟩ :: h2 ∧ ∀ d ∈ h2, ¬ (d.key = k ∧ d.write = w ∧ d.name = n)

/-- No declaration of a history is for that class, kind and name. -/
def Never (h : List Decl) (k : Key) (w : Bool) (n : Name) : Prop :=
  ∀ d ∈ h, ¬ (d.key = k ∧ d.write = w ∧ d.name = n)

end ZS.Spec
