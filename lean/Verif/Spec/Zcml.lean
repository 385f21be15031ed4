import Verif.Model.Zcml

/-!
# What redefinitions of permissions mean
-/

namespace ZS.Spec

/-- After a history of directives, the most recent one first, the id `u` stands for `v`.  The ids in a
redefinition are themselves read with the redefinitions before it. -/
inductive StandsFor (f : IdField) : List ZDirective → String → String → Prop
  | start {u} : StandsFor f [] u u
  | redefined {h a b u v} : StandsFor f h (f.strip a) u → StandsFor f h (f.strip b) v →
      StandsFor f (.redefine a b :: h) u v
  | other {h a b u u' v} : StandsFor f h (f.strip a) u' → u ≠ u' → StandsFor f h u v →
      StandsFor f (.redefine a b :: h) u v
  | skip {h d u v} : (∀ a b, d ≠ .redefine a b) → StandsFor f h u v → StandsFor f (d :: h) u v

/-- The directive contains the permission id. -/
inductive Mentions (f : IdField) : ZDirective → String → Prop
  | use {raw} : Mentions f (.use raw) (f.strip raw)
  | from_ {a b} : Mentions f (.redefine a b) (f.strip a)
  | to {a b} : Mentions f (.redefine a b) (f.strip b)

/-- The directive defines the permission. -/
inductive Defines (f : IdField) : ZDirective → String → Prop
  | permission {raw} : Defines f (.permission raw) (f.strip raw)

/-- The permission is registered. -/
def Registered (us : Utilities) (id : String) : Prop := ∃ v, (id, v) ∈ us

end ZS.Spec
