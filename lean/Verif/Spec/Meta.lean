import Verif.Model.Meta
import Verif.Spec.Protect

/-!
# What the directives mean

Stated with the arguments of the directives only: no actions, no order inside a directive.
-/

namespace ZS.Spec

/-- The class or module a directive is about. -/
def about : Directive → Key
  | .cls t _ => .ty t
  | .mod m _ => .mod m

/-- The interface has the name. -/
def HasName (i : Iface) (n : Name) : Prop := ∃ d, (n, d) ∈ i

/-- The directive declares that reading (`false`) or writing (`true`) the name requires the
permission. -/
inductive Declares : Directive → Bool → Name → Val → Prop
  | attributes {t r n} : n ∈ r.attributes → Declares (.cls t (.require r)) false n r.permission
  | interface {t r n i} : some i ∈ r.interface → HasName i n → Declares (.cls t (.require r)) false n r.permission
  | setAttributes {t r n} : n ∈ r.setAttributes → Declares (.cls t (.require r)) true n r.permission
  | setSchema {t r n i} : some i ∈ r.setSchema → i.get? n = some (.field false) →
      Declares (.cls t (.require r)) true n r.permission
  | allowAttributes {t l is n z} : n ∈ l → Declares (.cls t (.allow l is)) false n (.str z "zope.Public")
  | allowInterface {t l is n i z} : some i ∈ is → HasName i n →
      Declares (.cls t (.allow l is)) false n (.str z "zope.Public")
  | modAllowAttributes {m l is n z} : n ∈ l → Declares (.mod m (.allow l is)) false n (.str z "zope.Public")
  | modAllowInterface {m l is n i z} : i ∈ is → HasName i n →
      Declares (.mod m (.allow l is)) false n (.str z "zope.Public")
  | modAttributes {m p l is n} : n ∈ l → Declares (.mod m (.require p l is)) false n p
  | modInterface {m p l is n i} : i ∈ is → HasName i n → Declares (.mod m (.require p l is)) false n p

/-- The directive says the class is to be protected like another one. -/
inductive LikeClass : Directive → Key → Prop
  | like {t r u} : r.likeClass = some u → LikeClass (.cls t (.require r)) u

/-- The `require` names no attributes, interfaces, settable attributes or schemas. -/
def Nothing (r : Require) : Prop :=
  r.attributes = [] ∧ r.interface = [] ∧ r.setAttributes = [] ∧ r.setSchema = []

/-- No permission is given. -/
def NoPermission (p : Val) : Prop := p = .none ∨ ∃ a, p = .str a ""

/-- Reading the directive raises the exception. -/
inductive Raises : Directive → Exn → Prop
  | nothing {t r} : Nothing r → r.likeClass = none → Raises (.cls t (.require r)) .configurationError
  | noPermission {t r} : ¬ Nothing r → NoPermission r.permission → Raises (.cls t (.require r)) .configurationError
  | noSchema {t r} : ¬ NoPermission r.permission → none ∈ r.setSchema → Raises (.cls t (.require r)) .typeError
  | allowNothing {t} : Raises (.cls t (.allow [] [])) .configurationError

/-- What all classes and modules require, by kind and name: `none` when nothing is stored. -/
abbrev Store := Key → Bool → Name → Option Val

/-- The effect of one directive: what it declares holds, the class's other requirements are those
of the class it is to be like where that has one, and nothing else changes. -/
structure Effect (d : Directive) (σ σ' : Store) : Prop where
  frame : ∀ k, k ≠ about d → σ' k = σ k
  declared : ∀ w n p, Declares d w n p → p ≠ .none → Means p (σ' (about d) w n)
  declaredNone : ∀ w n, Declares d w n .none → σ' (about d) w n = some .none
  same : (∀ u, ¬ LikeClass d u) → ∀ w n, (∀ p, ¬ Declares d w n p) → σ' (about d) w n = σ (about d) w n
  likeSome : ∀ u, LikeClass d u → ∀ w n q, (∀ p, ¬ Declares d w n p) → σ u w n = some q → σ' (about d) w n = some q
  likeNone : ∀ u, LikeClass d u → ∀ w n, (∀ p, ¬ Declares d w n p) → σ u w n = none →
    σ' (about d) w n = σ (about d) w n

/-- The effect of a configuration: one directive after the other. -/
inductive Effects : List Directive → Store → Store → Prop
  | nil {σ} : Effects [] σ σ
  | cons {d l σ σ1 σ2} : Effect d σ σ1 → Effects l σ1 σ2 → Effects (d :: l) σ σ2

end ZS.Spec
