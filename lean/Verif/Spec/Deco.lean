import Verif.Spec.Combine
import Verif.Spec.Select

/-!
# Specification of the checkers of decorated objects
-/

namespace ZS.Spec
variable {A : Type}

/-- The checker of a decorated object that is not security-proxied.  `own` is the lookup of its
`__Security_checker__`, `select` the choice by its type. -/
inductive PlainInner (own select : St A → Res Val × St A) (s : St A) : Res Val × St A → Prop
  | own {c s1} : own s = (.ok c, s1) → c ≠ .none → PlainInner own select s (.ok c, s1)
  | noneOwn {s1 r} : own s = (.ok .none, s1) → select s1 = r → PlainInner own select s r
  | absent {e s1 r} : own s = (.err e, s1) → e.isAttr = true → select s1 = r → PlainInner own select s r
  | fails {e s1} : own s = (.err e, s1) → e.isAttr = false → PlainInner own select s (.err e, s1)
  | hangs {s1} : own s = (.diverge, s1) → PlainInner own select s (.diverge, s1)

/-- The two permission dictionaries of a checker. -/
inductive Dicts : Val → Nat → Nat → Prop
  | plain {i g st} : Dicts (.checker i g st) g st
  | combined {i g st c} : Dicts (.combined i g st c) g st

/-- The checker of a decorator, from the outcome for the decorated object and the choice by the
decorator's own type: a combination, the decorator's first. -/
inductive DecoSpec (select : St A → Res Val × St A) : Res Val × St A → Res Val × St A → Prop
  | both {ci s1 co s2 g st} : ci ≠ .none → select s1 = (.ok co, s2) → Dicts co g st →
      DecoSpec select (.ok ci, s1) (.ok (.combined s2.nextId g st ci), { s2 with nextId := s2.nextId + 1 })
  | innerOnly {ci s1 s2} : ci ≠ .none → select s1 = (.ok .none, s2) → DecoSpec select (.ok ci, s1) (.ok ci, s2)
  | outerOnly {s1 co s2} : select s1 = (.ok co, s2) → co ≠ .none → DecoSpec select (.ok .none, s1) (.ok co, s2)
  | neither {s1 s2} : select s1 = (.ok .none, s2) →
      DecoSpec select (.ok .none, s1) (.err (.attributeError "__Security_checker__"), s2)
  | outerFails {ci s1 e s2} : select s1 = (.err e, s2) → DecoSpec select (.ok ci, s1) (.err e, s2)
  | outerHangs {ci s1 s2} : select s1 = (.diverge, s2) → DecoSpec select (.ok ci, s1) (.diverge, s2)
  | innerFails {e s1} : DecoSpec select (.err e, s1) (.err e, s1)
  | innerHangs {s1} : DecoSpec select (.diverge, s1) (.diverge, s1)

/-- An object inside any number of decorators, the outermost first. -/
def decorated : List (Nat × String) → Val → Val
  | [], v => v
  | (i, cls) :: r, v => .deco i cls (decorated r v)

/-- Each check either grants or refuses, and has no effects. -/
def Decisive (links : List (St A → Res Unit × St A)) (s : St A) : Prop :=
  ∀ f ∈ links, f s = (.ok (), s) ∨ ∃ e, f s = (.err e, s) ∧ Refusal e

end ZS.Spec
