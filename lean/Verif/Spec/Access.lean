import Verif.Model.State

/-!
# Specification of `canAccess` and `canWrite`

Over arbitrary checks, given as functions of the state.
-/

namespace ZS.Spec
variable {A : Type}

/-- The exception means that authorization is lacking. -/
def IsUnauth (e : Exn) : Prop := ∃ o n p, e = .unauthorized o n p

/-- The exception means that the name is forbidden. -/
def IsForbid (e : Exn) : Prop := ∃ n o, e = .forbidden n o

/-- `canAccess`, given the read check. -/
inductive AccessSpec (read : St A → Res Unit × St A) (s : St A) : Res Bool × St A → Prop
  | yes {s1} : read s = (.ok (), s1) → AccessSpec read s (.ok true, s1)
  | no {e s1} : read s = (.err e, s1) → IsUnauth e → AccessSpec read s (.ok false, s1)
  | raises {e s1} : read s = (.err e, s1) → ¬ IsUnauth e → AccessSpec read s (.err e, s1)
  | hangs {s1} : read s = (.diverge, s1) → AccessSpec read s (.diverge, s1)

/-- `canWrite`, given the write check and the read check. -/
inductive CanWriteSpec (write read : St A → Res Unit × St A) (s : St A) : Res Bool × St A → Prop
  | yes {s1} : write s = (.ok (), s1) → CanWriteSpec write read s (.ok true, s1)
  | no {e s1} : write s = (.err e, s1) → IsUnauth e → CanWriteSpec write read s (.ok false, s1)
  | readOnly {e s1 s2} : write s = (.err e, s1) → IsForbid e → read s1 = (.ok (), s2) →
      CanWriteSpec write read s (.ok false, s2)
  | readUnauth {e s1 e2 s2} : write s = (.err e, s1) → IsForbid e → read s1 = (.err e2, s2) → IsUnauth e2 →
      CanWriteSpec write read s (.ok false, s2)
  | readRaises {e s1 e2 s2} : write s = (.err e, s1) → IsForbid e → read s1 = (.err e2, s2) → ¬ IsUnauth e2 →
      CanWriteSpec write read s (.err e2, s2)
  | readHangs {e s1 s2} : write s = (.err e, s1) → IsForbid e → read s1 = (.diverge, s2) →
      CanWriteSpec write read s (.diverge, s2)
  | raises {e s1} : write s = (.err e, s1) → ¬ IsUnauth e → ¬ IsForbid e → CanWriteSpec write read s (.err e, s1)
  | hangs {s1} : write s = (.diverge, s1) → CanWriteSpec write read s (.diverge, s1)

/-- The states agree in everything but the record of events. -/
def Ghost (s s' : St A) : Prop := { s with trace := [] } = { s' with trace := [] }

/-- No policy distinguishes the two objects (or looks at the record of events, which does not exist
in reality). -/
def Indifferent (W : World A) (o o' : Val) : Prop :=
  ∀ v perm s s', Ghost s s' →
    (W.apply (.method v "checkPermission" [perm, o]) s).1 = (W.apply (.method v "checkPermission" [perm, o']) s').1
    ∧ Ghost (W.apply (.method v "checkPermission" [perm, o]) s).2 (W.apply (.method v "checkPermission" [perm, o']) s').2

/-- The world does not look at the record of events, which does not exist in reality. -/
def Blind (W : World A) : Prop :=
  ∀ r s s', Ghost s s' → (W.apply r s).1 = (W.apply r s').1 ∧ Ghost (W.apply r s).2 (W.apply r s').2

/-- The same refusal, about `o` in one case and about `o'` in the other; or the same exception. -/
def LikeExn (o o' : Val) (e e' : Exn) : Prop :=
  e = e' ∨ (∃ n p, e = .unauthorized o n p ∧ e' = .unauthorized o' n p) ∨ (∃ n, e = .forbidden n o ∧ e' = .forbidden n o')

/-- The same outcome, up to the object named in refusals. -/
inductive LikeRes {α : Type} (o o' : Val) : Res α → Res α → Prop
  | ok {a} : LikeRes o o' (.ok a) (.ok a)
  | err {e e'} : LikeExn o o' e e' → LikeRes o o' (.err e) (.err e')
  | diverge : LikeRes o o' .diverge .diverge

end ZS.Spec
