import Verif.Spec.Select
import Verif.Model.Select

/-!
# Selection lemmas
-/

namespace ZS
open Spec
variable {A : Type}

theorem isChecker_iff (v : Val) : v.isChecker = true ↔ IsChecker v := by
  cases v <;> simp [Val.isChecker, IsChecker]

theorem isProxy_iff (v : Val) : v.isProxy = true ↔ IsProxy v := by
  cases v <;> simp [Val.isProxy, IsProxy]

theorem not_isProxy_iff (v : Val) : v.isProxy = false ↔ ¬ IsProxy v := by
  rw [← isProxy_iff]; simp

theorem entry_iff (W : World A) (s : St A) (o e : Val) : Entry s.reg (typeOf W o) e ↔ regEntry W s o = e := by
  unfold Entry regEntry
  cases s.reg.get? (.ty (typeOf W o)) <;> simp [defaultChecker, eq_comm]

theorem calls_iff (X : Ctx A) (f o : Val) (s : St A) (r : Res Val) (s' : St A) :
    callFactory X f o s = (r, s') ↔ Calls X.W s o f r s' := by
  constructor
  · intro h
    have code : ∀ f, f ≠ .fn 0 → ¬ NotCallable f → probe X (.call f [o]) s = (r, s') → Calls X.W s o f r s' := by
      intro f h1 h2 h3
      have : (r, s') = ((X.W.apply (.call f [o]) { s with trace := s.trace ++ [.probed (.call f [o])] }).1,
        { (X.W.apply (.call f [o]) { s with trace := s.trace ++ [.probed (.call f [o])] }).2 with
            trace := s.trace ++ [.probed (.call f [o])] }) := h3.symm
      cases this
      exact .code h1 h2 rfl
    have nc : NotCallable f → (M.throw .typeError : M A Val) s = (r, s') → Calls X.W s o f r s' := by
      intro h1 h2
      cases h2
      exact .notCallable h1
    unfold callFactory at h
    split at h
    · simp only [run_bind, run_get] at h
      split at h
      · next m =>
        cases hr : s.reg.get? (.mod m) with
        | some c => simp only [hr, Option.getD_some, run_pure] at h; cases h; exact .moduleOwn rfl hr
        | none => simp only [hr, Option.getD_none, run_pure] at h; cases h; exact .moduleNamed rfl hr
      · next hm => cases h; exact .otherNamed (fun m hm' => hm m hm')
    all_goals first
      | (exact nc (by simp [NotCallable]) h)
      | (next h0 _ _ _ _ _ _ _ _ =>
          refine code _ (fun hf => ?_) ?_ h
          · simp_all
          · simp_all [NotCallable])
  · intro h
    cases h with
    | moduleOwn h1 h2 => subst h1; simp [callFactory, run_bind, h2]
    | moduleNamed h1 h2 => subst h1; simp [callFactory, run_bind, h2, namedChecker]
    | otherNamed h1 =>
      unfold callFactory
      cases o <;> simp [run_bind, namedChecker] at h1 ⊢
    | notCallable h1 =>
      rcases h1 with rfl | rfl | rfl | ⟨_, rfl⟩ | ⟨_, rfl⟩ | ⟨_, _, rfl⟩ | ⟨_, rfl⟩ | ⟨_, rfl⟩ <;> rfl
    | code h1 h2 h3 =>
      subst h3
      unfold callFactory
      split <;> first | rfl | (exfalso; simp_all [NotCallable]; done)

theorem selectLoop_zero (X : Ctx A) (o c : Val) :
    selectLoop X o 0 c = if c.isChecker then pure c else M.diverge := by rw [selectLoop]

theorem selectLoop_succ (X : Ctx A) (o : Val) (k : Nat) (c : Val) :
    selectLoop X o (k + 1) c = if c.isChecker then pure c else (do
        let c' ← callFactory X c o
        if c' = .noProxy ∨ c' = .none then pure .none else selectLoop X o k c') := by rw [selectLoop]

/-- The loop follows `Resolves` when it ends. -/
theorem selectLoop_sound (X : Ctx A) (o : Val) (k : Nat) (c : Val) (s : St A) (r : Res Val) (s' : St A)
    (h : selectLoop X o k c s = (r, s')) (hr : r ≠ .diverge) : Resolves X.W o c s r s' := by
  induction k generalizing c s with
  | zero =>
    rw [selectLoop_zero] at h
    split at h
    · next hc => cases h; exact .found ((isChecker_iff c).mp hc)
    · cases h; exact absurd rfl hr
  | succ k ih =>
    rw [selectLoop_succ] at h
    split at h
    · next hc => cases h; exact .found ((isChecker_iff c).mp hc)
    · next hc =>
      rw [isChecker_iff] at hc
      rw [run_bind] at h
      rcases hf : callFactory X c o s with ⟨r1, s1⟩
      rw [hf] at h
      have hcall := (calls_iff X c o s r1 s1).mp hf
      cases r1 with
      | ok c' =>
        simp only at h
        split at h
        · next h0 => cases h; exact .none hc hcall h0.symm
        · next h0 =>
          simp only [not_or] at h0
          exact .step hc hcall h0.2 h0.1 (ih c' s1 h)
      | err e => cases h; exact .fails hc hcall
      | diverge => cases h; exact absurd rfl hr

/-- Enough fuel makes the loop reach what `Resolves` reaches. -/
theorem selectLoop_complete (X : Ctx A) (o : Val) (c : Val) (s : St A) (r : Res Val) (s' : St A)
    (h : Resolves X.W o c s r s') : ∃ k0, ∀ k, k0 ≤ k → selectLoop X o k c s = (r, s') := by
  induction h with
  | @found c s hc =>
    refine ⟨0, fun k _ => ?_⟩
    unfold selectLoop
    rw [if_pos ((isChecker_iff c).mpr hc)]; rfl
  | @none c c' s s1 hc hcall h0 =>
    refine ⟨1, fun k hk => ?_⟩
    obtain ⟨k, rfl⟩ : ∃ j, k = j + 1 := ⟨k - 1, by omega⟩
    rw [selectLoop_succ, if_neg (fun h => hc ((isChecker_iff c).mp h)), run_bind, (calls_iff X c o s _ _).mpr hcall]
    simp only
    rw [if_pos h0.symm]; rfl
  | @step c c' s s1 r s2 hc hcall h1 h2 _ ih =>
    obtain ⟨k0, hk0⟩ := ih
    refine ⟨k0 + 1, fun k hk => ?_⟩
    obtain ⟨k, rfl⟩ : ∃ j, k = j + 1 := ⟨k - 1, by omega⟩
    rw [selectLoop_succ, if_neg (fun h => hc ((isChecker_iff c).mp h)), run_bind, (calls_iff X c o s _ _).mpr hcall]
    simp only
    rw [if_neg (by simp [h1, h2])]
    exact hk0 k (by omega)
  | @fails c e s s1 hc hcall =>
    refine ⟨1, fun k hk => ?_⟩
    obtain ⟨k, rfl⟩ : ∃ j, k = j + 1 := ⟨k - 1, by omega⟩
    rw [selectLoop_succ, if_neg (fun h => hc ((isChecker_iff c).mp h)), run_bind, (calls_iff X c o s _ _).mpr hcall]
  | @hangs c s s1 hc hcall =>
    refine ⟨1, fun k hk => ?_⟩
    obtain ⟨k, rfl⟩ : ∃ j, k = j + 1 := ⟨k - 1, by omega⟩
    rw [selectLoop_succ, if_neg (fun h => hc ((isChecker_iff c).mp h)), run_bind, (calls_iff X c o s _ _).mpr hcall]

theorem selectLoop_checker (X : Ctx A) (o : Val) (k : Nat) (c : Val) (s : St A) (hc : c.isChecker = true) :
    selectLoop X o k c s = (.ok c, s) := by
  unfold selectLoop; rw [if_pos hc]; rfl

theorem selectLoop_result (X : Ctx A) (o : Val) (k : Nat) (c : Val) (s : St A) (v : Val) (s' : St A)
    (h : selectLoop X o k c s = (.ok v, s')) : v = .none ∨ v.isChecker = true := by
  have := selectLoop_sound X o k c s _ s' h (by simp)
  generalize hr : (Res.ok v) = r at this
  induction this with
  | found hc => cases hr; exact .inr ((isChecker_iff _).mpr hc)
  | none => cases hr; exact .inl rfl
  | step hc hcall h1 h2 hres ih =>
    subst hr
    -- the intermediate runs also come from the loop; argue on the relation
    clear h
    exact (by
      have aux : ∀ c s r s', Resolves X.W o c s r s' → ∀ v, r = .ok v → v = .none ∨ v.isChecker = true := by
        intro c s r s' h
        induction h with
        | found hc => intro v hv; cases hv; exact .inr ((isChecker_iff _).mpr hc)
        | none => intro v hv; cases hv; exact .inl rfl
        | step _ _ _ _ _ ih => exact ih
        | fails => intro v hv; cases hv
        | hangs => intro v hv; cases hv
      exact aux _ _ _ _ hres v rfl)
  | fails => cases hr
  | hangs => cases hr

theorem selectChecker_eq (X : Ctx A) (o : Val) (s : St A) :
    selectChecker X o s =
      if regEntry X.W s o = .noProxy then (.ok .none, s)
      else if X.impl = .c ∧ regEntry X.W s o = defaultChecker ∧ X.W.isExc o then (.ok .none, s)
      else selectLoop X o X.fuel (regEntry X.W s o) s := by
  unfold selectChecker
  cases X.impl
  · simp only [selectPy, run_bind, run_get, reduceCtorEq, false_and, if_false]
    split <;> rfl
  · simp only [selectC, run_bind, run_get, true_and]
    split
    · rfl
    · split <;> rfl

/-- Whatever is selected is `None` or a checker. -/
theorem selectChecker_result (X : Ctx A) (o : Val) (s : St A) (v : Val) (s' : St A)
    (h : selectChecker X o s = (.ok v, s')) : v = .none ∨ v.isChecker = true := by
  rw [selectChecker_eq] at h
  split at h
  · cases h; exact .inl rfl
  · split at h
    · cases h; exact .inl rfl
    · exact selectLoop_result _ _ _ _ _ _ _ h

theorem run_newProxy (v k : Val) (s : St A) (hk : k ≠ .none) :
    newProxy v k s = (.ok (.proxy s.nextId v k), { s with nextId := s.nextId + 1 }) := by
  unfold newProxy; rw [if_neg hk]; rfl

theorem byType_iff (X : Ctx A) (v : Val) (s : St A) (r : Res Val × St A) :
    (do let c ← selectChecker X v; if c = .none then pure v else newProxy v c : M A Val) s = r
      ↔ ByType (selectChecker X v) v s r := by
  rw [run_bind]
  constructor
  · rintro rfl
    rcases h : selectChecker X v s with ⟨r1, s1⟩
    cases r1 with
    | ok c =>
      simp only
      by_cases hc : c = .none
      · rw [if_pos hc]; subst hc; exact .bare h
      · rw [if_neg hc, run_newProxy _ _ _ hc]; exact .wrap h hc rfl
    | err e => exact .fails h
    | diverge => exact .hangs h
  · intro h
    cases h with
    | bare h => rw [h]; simp
    | wrap h1 h2 h3 => rw [h1, h3]; simp only; rw [if_neg h2, run_newProxy _ _ _ h2]
    | fails h => rw [h]
    | hangs h => rw [h]

/-- Protecting by own checker first, type second, with AttributeError meaning absence. -/
theorem protectPy_iff (X : Ctx A) (v : Val) (hv : ¬ IsProxy v) (s : St A) (r : Res Val × St A) :
    (do
      let c ← orNone (getSC X v)
      if c = .none then do
        let c ← selectChecker X v
        if c = .none then pure v else newProxy v c
      else newProxy v c : M A Val) s = r ↔ ProxySpec true (getSC X v) (selectChecker X v) v s r := by
  have hrun : (do
      let c ← orNone (getSC X v)
      if c = .none then do
        let c ← selectChecker X v
        if c = .none then pure v else newProxy v c
      else newProxy v c : M A Val) s = (match getSC X v s with
        | (.ok k, s1) => if k = .none then
            (do let c ← selectChecker X v; if c = .none then pure v else newProxy v c : M A Val) s1
            else newProxy v k s1
        | (.err e, s1) => if e.isAttr then
            (do let c ← selectChecker X v; if c = .none then pure v else newProxy v c : M A Val) s1
            else (.err e, s1)
        | (.diverge, s1) => (.diverge, s1)) := by
    rw [run_bind, orNone, run_tryCatch]
    rcases getSC X v s with ⟨r1, s1⟩
    cases r1 with
    | ok k => simp only; rw [run_ite]
    | err e =>
      simp only
      by_cases he : e.isAttr = true
      · simp only [if_pos he]; rfl
      · simp only [if_neg he]
    | diverge => rfl
  rw [hrun]
  constructor
  · rintro rfl
    rcases h : getSC X v s with ⟨r1, s1⟩
    cases r1 with
    | ok k =>
      simp only
      by_cases hk : k = .none
      · subst hk; rw [if_pos rfl]; exact .ownNone hv h rfl ((byType_iff X v s1 _).mp rfl)
      · rw [if_neg hk, run_newProxy _ _ _ hk]; exact .own hv h hk rfl
    | err e =>
      simp only
      by_cases he : e.isAttr
      · rw [if_pos he]; exact .absent hv h (fun _ => he) ((byType_iff X v s1 _).mp rfl)
      · rw [if_neg he]; exact .ownFails hv h rfl (by simpa using he)
    | diverge => exact .ownHangs hv h
  · intro h
    cases h with
    | already h => exact absurd h hv
    | own _ h1 h2 h3 => rw [h1, h3]; simp only; rw [if_neg h2, run_newProxy _ _ _ h2]
    | absent _ h1 h2 h3 => rw [h1]; simp only; rw [if_pos (h2 rfl), (byType_iff X v _ _).mpr h3]
    | ownFails _ h1 _ h2 => rw [h1]; simp [h2]
    | ownNone _ h1 _ h3 => rw [h1]; simp only; rw [if_pos trivial, (byType_iff X v _ _).mpr h3]
    | ownNoneRefused _ _ h => cases h
    | ownHangs _ h => rw [h]

theorem proxyC_proxy (X : Ctx A) {v : Val} (h : v.isProxy = true) : proxyC X v = pure v := if_pos h

theorem proxyC_raw (X : Ctx A) {v : Val} (h : v.isProxy = false) (s : St A) :
    proxyC X v s = match getSC X v s with
      | (.ok k, s1) => if k = .none then (.err .valueError, s1) else newProxy v k s1
      | (.err _, s1) =>
        (do let c ← selectChecker X v; if c = .none then pure v else newProxy v c : M A Val) s1
      | (.diverge, s1) => (.diverge, s1) :=
  congrFun (if_neg (by simp [h])) s

theorem protectC_iff (X : Ctx A) (v : Val) (s : St A) (r : Res Val × St A) :
    proxyC X v s = r ↔ ProxySpec false (getSC X v) (selectChecker X v) v s r := by
  by_cases hp : v.isProxy = true
  · rw [proxyC_proxy X hp]
    have hp' := (isProxy_iff v).mp hp
    constructor
    · rintro rfl; exact .already hp'
    · intro h; cases h <;> first | rfl | contradiction
  · have hv : ¬ IsProxy v := fun h => hp ((isProxy_iff v).mpr h)
    rw [proxyC_raw X (by simpa using hp)]
    constructor
    · rintro rfl
      rcases h : getSC X v s with ⟨r1, s1⟩
      cases r1 with
      | ok k =>
        simp only
        by_cases hk : k = .none
        · subst hk; rw [if_pos rfl]; exact .ownNoneRefused hv h rfl
        · rw [if_neg hk, run_newProxy _ _ _ hk]; exact .own hv h hk rfl
      | err e => exact .absent hv h (by simp) ((byType_iff X v s1 _).mp rfl)
      | diverge => exact .ownHangs hv h
    · intro h
      cases h with
      | already h => exact absurd h hv
      | own _ h1 h2 h3 => rw [h1, h3]; simp only; rw [if_neg h2, run_newProxy _ _ _ h2]
      | absent _ h1 h2 h3 => rw [h1]; simp only; rw [(byType_iff X v _ _).mpr h3]
      | ownFails _ _ h => cases h
      | ownNone _ _ h => cases h
      | ownNoneRefused _ h1 _ => rw [h1]; simp
      | ownHangs _ h => rw [h]

theorem protectPyProxy_iff (X : Ctx A) (v : Val) (s : St A) (r : Res Val × St A) :
    proxyPy X v s = r ↔ ProxySpec true (getSC X v) (selectChecker X v) v s r := by
  by_cases hp : v.isProxy = true
  · rw [show proxyPy X v = pure v from if_pos hp]
    have hp' := (isProxy_iff v).mp hp
    constructor
    · rintro rfl; exact .already hp'
    · intro h; cases h <;> first | rfl | contradiction
  · have hv : ¬ IsProxy v := fun h => hp ((isProxy_iff v).mpr h)
    rw [← protectPy_iff X v hv s r, show proxyPy X v = _ from if_neg hp]

end ZS
