import Verif.Model.State

/-!
# Specification of combined checkers

Written over arbitrary "check" computations, without the model's `combine`.
-/

namespace ZS.Spec
variable {A : Type}

/-- The documented table of `CombinedChecker` (checker.py:536-552), with the rows for exceptions
that are not refusals.  `first` and `second` are the two checks; the second runs in the state
the first left. -/
inductive CombineSpec (first second : St A → Res Unit × St A) (s : St A) : Res Unit × St A → Prop
  | ok_any {s1} : first s = (.ok (), s1) → CombineSpec first second s (.ok (), s1)
  | forbidden_then {n o s1 r} : first s = (.err (.forbidden n o), s1) → second s1 = r →
      CombineSpec first second s r
  | unauth_ok {o n p s1 s2} : first s = (.err (.unauthorized o n p), s1) → second s1 = (.ok (), s2) →
      CombineSpec first second s (.ok (), s2)
  | unauth_unauth {o n p s1 o' n' p' s2} : first s = (.err (.unauthorized o n p), s1) →
      second s1 = (.err (.unauthorized o' n' p'), s2) →
      CombineSpec first second s (.err (.unauthorized o' n' p'), s2)
  | unauth_forbidden {o n p s1 o' n' s2} : first s = (.err (.unauthorized o n p), s1) →
      second s1 = (.err (.forbidden n' o'), s2) →
      CombineSpec first second s (.err (.unauthorized o n p), s2)
  | unauth_error {o n p s1 e s2} : first s = (.err (.unauthorized o n p), s1) →
      second s1 = (.err e, s2) → (∀ n o, e ≠ .forbidden n o) → (∀ o n p, e ≠ .unauthorized o n p) →
      CombineSpec first second s (.err e, s2)
  | unauth_hang {o n p s1 s2} : first s = (.err (.unauthorized o n p), s1) →
      second s1 = (.diverge, s2) → CombineSpec first second s (.diverge, s2)
  | error {e s1} : first s = (.err e, s1) → (∀ n o, e ≠ .forbidden n o) → (∀ o n p, e ≠ .unauthorized o n p) →
      CombineSpec first second s (.err e, s1)
  | hang {s1} : first s = (.diverge, s1) → CombineSpec first second s (.diverge, s1)

/-- The requirements a checker states itself: an ordinary checker with the same two dictionaries.
It is the checker itself unless that is a combined one, which states more in its second half. -/
def ownHalf : Val → Val
  | .combined i g st _ => .checker i g st
  | c => c

/-- An exception by which a checker says no. -/
def Refusal (e : Exn) : Prop := (∃ n o, e = .forbidden n o) ∨ (∃ o n p, e = .unauthorized o n p)

/-- All these checks, run one after the other, refuse with the listed exceptions. -/
inductive Refusals : List (St A → Res Unit × St A) → St A → List Exn → St A → Prop
  | nil {s} : Refusals [] s [] s
  | cons {f fs s e es s1 s2} : f s = (.err e, s1) → Refusal e → Refusals fs s1 es s2 →
      Refusals (f :: fs) s (e :: es) s2

/-- The exception reported when all links refused: the last `Unauthorized`, or if there is none
the last exception (a `ForbiddenAttribute`). -/
inductive Verdict : List Exn → Exn → Prop
  | allForbidden {es n o} : (∀ e ∈ es, ∃ n o, e = .forbidden n o) →
      Verdict (es ++ [.forbidden n o]) (.forbidden n o)
  | lastUnauthorized {es o n p fs} : (∀ e ∈ fs, ∃ n o, e = .forbidden n o) →
      Verdict (es ++ .unauthorized o n p :: fs) (.unauthorized o n p)

/-- The outcome of a chain of checks combined from right to left. -/
inductive ChainSpec (links : List (St A → Res Unit × St A)) (s : St A) : Res Unit × St A → Prop
  | granted {pre f post es s1 s2} : links = pre ++ f :: post → Refusals pre s es s1 →
      f s1 = (.ok (), s2) → ChainSpec links s (.ok (), s2)
  | refused {es s1 e} : Refusals links s es s1 → Verdict es e → ChainSpec links s (.err e, s1)
  | failed {pre f post es s1 e s2} : links = pre ++ f :: post → Refusals pre s es s1 →
      f s1 = (.err e, s2) → ¬ Refusal e → ChainSpec links s (.err e, s2)
  | hung {pre f post es s1 s2} : links = pre ++ f :: post → Refusals pre s es s1 →
      f s1 = (.diverge, s2) → ChainSpec links s (.diverge, s2)

end ZS.Spec
