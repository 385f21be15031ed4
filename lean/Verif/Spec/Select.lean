import Verif.Model.State

/-!
# Specification of checker selection and of proxy creation
-/

namespace ZS.Spec
variable {A : Type}

/-- An instance of the package's `Checker` class. -/
def IsChecker (v : Val) : Prop := (∃ i g st, v = .checker i g st) ∨ (∃ i g st c, v = .combined i g st c)

/-- A security proxy. -/
def IsProxy (v : Val) : Prop := ∃ i w c, v = .proxy i w c

/-- The registry entry in force for an object whose type is named `t`. -/
def Entry (reg : PyDict Key Val) (t : String) (e : Val) : Prop :=
  reg.get? (.ty t) = some e ∨ (reg.get? (.ty t) = none ∧ e = .checker 1 2 3)

/-- Not callable values (calling them is a TypeError). -/
def NotCallable (v : Val) : Prop :=
  v = .none ∨ v = .notImpl ∨ v = .noProxy ∨ (∃ b, v = .bool b) ∨ (∃ n, v = .int n)
    ∨ (∃ a t, v = .str a t) ∨ (∃ m, v = .module m) ∨ (∃ i, v = .ix i)

/-- Calling registry entry `f` on object `o`. -/
inductive Calls (W : World A) (s : St A) (o : Val) : Val → Res Val → St A → Prop
  | moduleOwn {m c} : o = .module m → s.reg.get? (.mod m) = some c → Calls W s o (.fn 0) (.ok c) s
  | moduleNamed {m} : o = .module m → s.reg.get? (.mod m) = none → Calls W s o (.fn 0) (.ok (.checker 2 4 5)) s
  | otherNamed : (∀ m, o ≠ .module m) → Calls W s o (.fn 0) (.ok (.checker 2 4 5)) s
  | notCallable {v} : NotCallable v → Calls W s o v (.err .typeError) s
  | code {f} {r : Res Val × St A} : f ≠ .fn 0 → ¬ NotCallable f →
      W.apply (.call f [o]) { s with trace := s.trace ++ [.probed (.call f [o])] } = r →
      Calls W s o f r.1 { r.2 with trace := s.trace ++ [.probed (.call f [o])] }

/-- Following factories until a checker, `None` or `NoProxy` is reached. -/
inductive Resolves (W : World A) (o : Val) : Val → St A → Res Val → St A → Prop
  | found {c s} : IsChecker c → Resolves W o c s (.ok c) s
  | none {c c' s s1} : ¬ IsChecker c → Calls W s o c (.ok c') s1 → c' = .none ∨ c' = .noProxy →
      Resolves W o c s (.ok .none) s1
  | step {c c' s s1 r s2} : ¬ IsChecker c → Calls W s o c (.ok c') s1 → c' ≠ .none → c' ≠ .noProxy →
      Resolves W o c' s1 r s2 → Resolves W o c s r s2
  | fails {c e s s1} : ¬ IsChecker c → Calls W s o c (.err e) s1 → Resolves W o c s (.err e) s1
  | hangs {c s s1} : ¬ IsChecker c → Calls W s o c .diverge s1 → Resolves W o c s .diverge s1

/-- The answer of `selectChecker(o)`. -/
inductive SelectSpec (X : Ctx A) (o : Val) (s : St A) : Res Val → St A → Prop
  | rock : Entry s.reg (typeOf X.W o) .noProxy → SelectSpec X o s (.ok .none) s
  | exception : X.impl = .c → Entry s.reg (typeOf X.W o) (.checker 1 2 3) → X.W.isExc o = true →
      SelectSpec X o s (.ok .none) s
  | resolved {e r s'} : Entry s.reg (typeOf X.W o) e → e ≠ .noProxy →
      ¬ (X.impl = .c ∧ e = .checker 1 2 3 ∧ X.W.isExc o = true) →
      Resolves X.W o e s r s' → SelectSpec X o s r s'

/-- Creating a new proxy in state `s`. -/
def Fresh (v k : Val) (s : St A) (r : Res Val × St A) : Prop :=
  r = (.ok (.proxy s.nextId v k), { s with nextId := s.nextId + 1 })

/-- Protect `v` with what `select` answers. -/
inductive ByType (select : St A → Res Val × St A) (v : Val) (s : St A) : Res Val × St A → Prop
  | bare {s1} : select s = (.ok .none, s1) → ByType select v s (.ok v, s1)
  | wrap {k s1 r} : select s = (.ok k, s1) → k ≠ .none → Fresh v k s1 r → ByType select v s r
  | fails {e s1} : select s = (.err e, s1) → ByType select v s (.err e, s1)
  | hangs {s1} : select s = (.diverge, s1) → ByType select v s (.diverge, s1)

/-- What protecting `v` returns.  `own` is the lookup of `__Security_checker__`, `select` the
choice by type.  The implementations differ in which failures of the lookup mean "has none" and
in what a `None` found there means. -/
inductive ProxySpec (strict : Bool) (own select : St A → Res Val × St A) (v : Val) (s : St A) :
    Res Val × St A → Prop
  | already : IsProxy v → ProxySpec strict own select v s (.ok v, s)
  | own {k s1 r} : ¬ IsProxy v → own s = (.ok k, s1) → k ≠ .none → Fresh v k s1 r →
      ProxySpec strict own select v s r
  | absent {e s1 r} : ¬ IsProxy v → own s = (.err e, s1) → (strict = true → e.isAttr = true) →
      ByType select v s1 r → ProxySpec strict own select v s r
  | ownFails {e s1} : ¬ IsProxy v → own s = (.err e, s1) → strict = true → e.isAttr = false →
      ProxySpec strict own select v s (.err e, s1)
  | ownNone {s1 r} : ¬ IsProxy v → own s = (.ok .none, s1) → strict = true →
      ByType select v s1 r → ProxySpec strict own select v s r
  | ownNoneRefused {s1} : ¬ IsProxy v → own s = (.ok .none, s1) → strict = false →
      ProxySpec strict own select v s (.err .valueError, s1)
  | ownHangs {s1} : ¬ IsProxy v → own s = (.diverge, s1) → ProxySpec strict own select v s (.diverge, s1)

end ZS.Spec
