import Verif.Model.Threads
import Verif.Model.Run
import Verif.Examples.World

/-!
# C50, C56 Registration by several threads at once
-/

namespace ZS.Props
variable {A : Type}

@[simp] theorem setPc_self {P : Type} (pc : Nat → P) (i : Nat) (p : P) : setPc pc i p i = p := by simp [setPc]
theorem setPc_ne {P : Type} (pc : Nat → P) {i j : Nat} (p : P) (h : j ≠ i) : setPc pc i p j = pc j := by simp [setPc, h]

theorem run_append (c : DefCfg) (l l' : List Nat) : defRun c (l ++ l') = defRun (defRun c l) l' := by
  induction l generalizing c with
  | nil => rfl
  | cons i l ih => exact ih _

/-- Induction over schedules: an invariant of the steps. -/
theorem defRun_inv (I : DefCfg → Prop) (hstep : ∀ c i c', I c → defStep c i = some c' → I c') (c : DefCfg) (l : List Nat) (h : I c) :
    I (defRun c l) := by
  induction l generalizing c with
  | nil => exact h
  | cons i l ih =>
    apply ih
    cases hs : defStep c i with
    | none => exact h
    | some c' => exact hstep c i c' h hs

theorem mem_iff {K V : Type} [DecidableEq K] (d : PyDict K V) (k : K) : d.mem k = true ↔ ∃ v, d.get? k = some v := by
  unfold PyDict.mem
  cases d.get? k <;> simp

/-- The steps, case by case. -/
theorem defStep_cases {c c' : DefCfg} {i : Nat} (h : defStep c i = some c') :
    (∃ k v, c.pc i = .start k v ∧ (∃ w, c.reg.get? k = some w) ∧ c' = { c with pc := setPc c.pc i (.duplication k v) })
    ∨ (∃ k v, c.pc i = .start k v ∧ c.reg.get? k = none ∧ c' = { c with pc := setPc c.pc i (.tested k v) })
    ∨ (∃ k v, c.pc i = .tested k v ∧ c' = { reg := c.reg.set k v, pc := setPc c.pc i (.returned k v) }) := by
  unfold defStep at h
  cases hp : c.pc i with
  | start k v =>
    rw [hp] at h
    simp only at h
    by_cases hm : c.reg.mem k = true
    · rw [if_pos hm] at h; cases h
      exact .inl ⟨k, v, rfl, (mem_iff _ _).mp hm, rfl⟩
    · rw [if_neg hm] at h; cases h
      refine .inr (.inl ⟨k, v, rfl, ?_, rfl⟩)
      cases hg : c.reg.get? k with
      | none => rfl
      | some w => exact absurd ((mem_iff _ _).mpr ⟨w, hg⟩) hm
  | tested k v => rw [hp] at h; cases h; exact .inr (.inr ⟨k, v, rfl, rfl⟩)
  | idle => rw [hp] at h; cases h
  | returned k v => rw [hp] at h; cases h
  | duplication k v => rw [hp] at h; cases h

/-- The call a thread is making, at whatever point. -/
def callOf : DefPc → Option (Key × Val)
  | .idle => none
  | .start k c | .tested k c | .returned k c | .duplication k c => some (k, c)

/-- The thread has returned or raised. -/
def Finished : DefPc → Prop
  | .returned _ _ | .duplication _ _ => True
  | _ => False

/-- **C50** Any number of threads call `defineChecker` at once, in any interleaving of their steps, for any types,
none of which has a checker at first.  Whenever some of those for type `k` have finished, one of them has succeeded,
and the registry holds a checker given by one that succeeded; before, it holds none. -/
theorem C50_some_succeeds (c0 : DefCfg) (h0 : ∀ i, c0.pc i = .idle ∨ ∃ k v, c0.pc i = .start k v) (k : Key)
    (hk : c0.reg.get? k = none) (sched : List Nat) :
    let c := defRun c0 sched
    ((∃ i p, c.pc i = p ∧ Finished p ∧ (callOf p).map (·.1) = some k) →
      ∃ j v, c.pc j = .returned k v ∧ c.reg.get? k = some v)
    ∧ ((¬ ∃ j v, c.pc j = .returned k v) → c.reg.get? k = none) := by
  intro c
  have inv : (c.reg.get? k = none ∧ ∀ i, ¬ (Finished (c.pc i) ∧ (callOf (c.pc i)).map (·.1) = some k))
      ∨ ∃ j v, c.pc j = .returned k v ∧ c.reg.get? k = some v := by
    refine defRun_inv (fun c => (c.reg.get? k = none ∧ ∀ i, ¬ (Finished (c.pc i) ∧ (callOf (c.pc i)).map (·.1) = some k))
      ∨ ∃ j v, c.pc j = .returned k v ∧ c.reg.get? k = some v) ?_ c0 sched ?_
    · intro c i c' hI hs
      rcases defStep_cases hs with ⟨k', v, h1, ⟨w, h2⟩, rfl⟩ | ⟨k', v, h1, h2, rfl⟩ | ⟨k', v, h1, rfl⟩
      · rcases hI with ⟨g1, g2⟩ | ⟨j, u, g1, g2⟩
        · refine .inl ⟨g1, fun j => ?_⟩
          by_cases hj : j = i
          · subst hj
            simp only [setPc_self]
            rintro ⟨_, h⟩
            simp only [callOf, Option.map_some, Option.some.injEq] at h
            subst h
            rw [g1] at h2; cases h2
          · simp only [setPc_ne c.pc _ hj]; exact g2 j
        · refine .inr ⟨j, u, ?_, g2⟩
          have hj : j ≠ i := by rintro rfl; rw [h1] at g1; cases g1
          simp only [setPc_ne c.pc _ hj]; exact g1
      · rcases hI with ⟨g1, g2⟩ | ⟨j, u, g1, g2⟩
        · refine .inl ⟨g1, fun j => ?_⟩
          by_cases hj : j = i
          · subst hj
            simp only [setPc_self]
            rintro ⟨h, _⟩
            exact h
          · simp only [setPc_ne c.pc _ hj]; exact g2 j
        · refine .inr ⟨j, u, ?_, g2⟩
          have hj : j ≠ i := by rintro rfl; rw [h1] at g1; cases g1
          simp only [setPc_ne c.pc _ hj]; exact g1
      · by_cases hkk : k' = k
        · subst hkk
          exact .inr ⟨i, v, by simp, by simp⟩
        · rcases hI with ⟨g1, g2⟩ | ⟨j, u, g1, g2⟩
          · refine .inl ⟨by rw [PyDict.get?_set_ne _ _ hkk]; exact g1, fun j => ?_⟩
            by_cases hj : j = i
            · subst hj
              simp only [setPc_self]
              rintro ⟨_, h⟩
              simp only [callOf, Option.map_some, Option.some.injEq] at h
              exact hkk h
            · simp only [setPc_ne c.pc _ hj]; exact g2 j
          · refine .inr ⟨j, u, ?_, by rw [PyDict.get?_set_ne _ _ hkk]; exact g2⟩
            have hj : j ≠ i := by rintro rfl; rw [h1] at g1; cases g1
            simp only [setPc_ne c.pc _ hj]; exact g1
    · refine .inl ⟨hk, fun i => ?_⟩
      rintro ⟨h, _⟩
      rcases h0 i with h' | ⟨a, b, h'⟩ <;> rw [h'] at h <;> exact h
  constructor
  · rintro ⟨i, p, rfl, h1, h2⟩
    rcases inv with ⟨_, g⟩ | g
    · exact absurd ⟨h1, h2⟩ (g i)
    · exact g
  · intro h
    rcases inv with g | ⟨j, v, g, _⟩
    · exact g.1
    · exact absurd ⟨j, v, g⟩ h

/-- **C50** Threads stay with the type and checker they were called with, so that the successful callers of
`C50_some_succeeds` are callers at the start. -/
theorem C50_calls_kept (c0 : DefCfg) (sched : List Nat) (i : Nat) : callOf ((defRun c0 sched).pc i) = callOf (c0.pc i) := by
  refine defRun_inv (fun c => callOf (c.pc i) = callOf (c0.pc i)) ?_ c0 sched rfl
  intro c j c' hI hs
  by_cases hj : i = j
  · subst hj
    rcases defStep_cases hs with ⟨k, v, h1, _, rfl⟩ | ⟨k, v, h1, _, rfl⟩ | ⟨k, v, h1, rfl⟩ <;> simp only [setPc_self] <;> rw [← hI, h1] <;> rfl
  · rcases defStep_cases hs with ⟨k, v, h1, _, rfl⟩ | ⟨k, v, h1, _, rfl⟩ | ⟨k, v, h1, rfl⟩ <;> simpa only [setPc_ne _ _ hj] using hI

/-- **C50** A call that starts when another for the same type has succeeded, or when the type has a checker
already, can only end in `DuplicationError`, and the checker found then is never replaced by it. -/
theorem C50_late_caller (c0 : DefCfg) (i : Nat) (k : Key) (v : Val) (h : c0.pc i = .start k v) (hk : ∃ w, c0.reg.get? k = some w)
    (sched : List Nat) : (defRun c0 sched).pc i = .start k v ∨ (defRun c0 sched).pc i = .duplication k v := by
  have inv : (∃ w, (defRun c0 sched).reg.get? k = some w)
      ∧ ((defRun c0 sched).pc i = .start k v ∨ (defRun c0 sched).pc i = .duplication k v) := by
    refine defRun_inv (fun c => (∃ w, c.reg.get? k = some w) ∧ (c.pc i = .start k v ∨ c.pc i = .duplication k v)) ?_ c0 sched ⟨hk, .inl h⟩
    rintro c j c' ⟨⟨w, g1⟩, g2⟩ hs
    rcases defStep_cases hs with ⟨k', v', h1, h2, rfl⟩ | ⟨k', v', h1, h2, rfl⟩ | ⟨k', v', h1, rfl⟩
    · refine ⟨⟨w, g1⟩, ?_⟩
      by_cases hj : i = j
      · subst hj
        rcases g2 with g2 | g2
        · rw [g2] at h1; cases h1; exact .inr (by simp)
        · rw [g2] at h1; cases h1
      · simp only [setPc_ne c.pc _ hj]; exact g2
    · refine ⟨⟨w, g1⟩, ?_⟩
      by_cases hj : i = j
      · subst hj
        rcases g2 with g2 | g2
        · rw [g2] at h1; cases h1; rw [g1] at h2; cases h2
        · rw [g2] at h1; cases h1
      · simp only [setPc_ne c.pc _ hj]; exact g2
    · refine ⟨?_, ?_⟩
      · by_cases hkk : k' = k
        · subst hkk; exact ⟨v', by simp⟩
        · exact ⟨w, by rw [PyDict.get?_set_ne _ _ hkk]; exact g1⟩
      · by_cases hj : i = j
        · subst hj
          rcases g2 with g2 | g2 <;> rw [g2] at h1 <;> cases h1
        · simp only [setPc_ne c.pc _ hj]; exact g2
  exact inv.2

/-- **C50** Any schedule gives every unfinished thread a way to finish: two more steps of it are enough. -/
theorem C50_two_steps (c : DefCfg) (i : Nat) (h : c.pc i ≠ .idle) : Finished ((defRun c [i, i]).pc i) := by
  simp only [defRun]
  cases hp : c.pc i with
  | idle => exact absurd hp h
  | start k v =>
    by_cases hm : c.reg.mem k = true
    · have h1 : defStep c i = some { c with pc := setPc c.pc i (.duplication k v) } := by
        unfold defStep; rw [hp]; simp only [hm, if_true]
      rw [h1]
      simp [defStep, Finished]
    · have h1 : defStep c i = some { c with pc := setPc c.pc i (.tested k v) } := by
        unfold defStep; rw [hp]; simp only [hm, if_false]; rfl
      rw [h1]
      simp [defStep, Finished]
  | tested k v => simp [defStep, hp, Finished]
  | returned k v => simp [defStep, hp, Finished]
  | duplication k v => simp [defStep, hp, Finished]

/-- The model of the steps agrees with the model of the whole function: undisturbed, the two steps do what
`defineChecker` does. -/
theorem C50_undisturbed (c : DefCfg) (i : Nat) (t v : Val) (k : Key) (hd : definable t = some k) (h : c.pc i = .start k v) (s : St A)
    (hs : s.reg = c.reg) :
    (defineChecker t v s).2.reg = (defRun c [i, i]).reg
    ∧ ((defineChecker t v s).1 = .ok () ↔ (defRun c [i, i]).pc i = .returned k v)
    ∧ ((defineChecker t v s).1 = .err (.duplication t) ↔ (defRun c [i, i]).pc i = .duplication k v) := by
  unfold defineChecker
  rw [hd]
  simp only [run_bind, run_get, defRun]
  by_cases hm : c.reg.mem k = true
  · have h1 : defStep c i = some { c with pc := setPc c.pc i (.duplication k v) } := by
      unfold defStep; rw [h]; simp only [hm, if_true]
    rw [h1, hs, if_pos hm]
    simp [defStep, hs]
  · have h1 : defStep c i = some { c with pc := setPc c.pc i (.tested k v) } := by
      unfold defStep; rw [h]; simp only [hm, if_false]; rfl
    rw [h1, hs, if_neg hm]
    simp [defStep, hs]

/-- **C50** That at most one succeeds is false: both test, then both store; the first one's checker is lost
although its call returned. -/
theorem C50_two_succeed : ∃ (c0 : DefCfg) (sched : List Nat), c0.reg = []
    ∧ c0.pc 0 = .start (.ty "T") (.checker 1 1 1) ∧ c0.pc 1 = .start (.ty "T") (.checker 2 2 2)
    ∧ (defRun c0 sched).pc 0 = .returned (.ty "T") (.checker 1 1 1) ∧ (defRun c0 sched).pc 1 = .returned (.ty "T") (.checker 2 2 2)
    ∧ (defRun c0 sched).reg.get? (.ty "T") = some (.checker 2 2 2) :=
  ⟨⟨[], fun i => if i = 0 then .start (.ty "T") (.checker 1 1 1) else .start (.ty "T") (.checker 2 2 2)⟩, [0, 1, 0, 1],
    rfl, rfl, rfl, rfl, rfl, rfl⟩

/-! ## C56 `protectName` -/

theorem protRun_inv (I : ProtCfg → Prop) (hstep : ∀ c i c', I c → protStep c i = some c' → I c') (c : ProtCfg) (l : List Nat) (h : I c) :
    I (protRun c l) := by
  induction l generalizing c with
  | nil => exact h
  | cons i l ih =>
    apply ih
    cases hs : protStep c i with
    | none => exact h
    | some c' => exact hstep c i c' h hs

/-- The steps, case by case. -/
theorem protStep_cases {c c' : ProtCfg} {i : Nat} (h : protStep c i = some c') :
    (∃ n p d, c.pc i = .start n p ∧ c.reg = some d ∧ c' = { c with pc := setPc c.pc i (.writing n p d) })
    ∨ (∃ n p, c.pc i = .start n p ∧ c.reg = none ∧ c' = { c with
        dicts := fun k => if k = c.next then [] else c.dicts k, next := c.next + 1, pc := setPc c.pc i (.testing n p c.next) })
    ∨ (∃ n p d e, c.pc i = .testing n p d ∧ c.reg = some e ∧ c' = { c with pc := setPc c.pc i (.duplication n p) })
    ∨ (∃ n p d, c.pc i = .testing n p d ∧ c.reg = none ∧ c' = { c with pc := setPc c.pc i (.storing n p d) })
    ∨ (∃ n p d, c.pc i = .storing n p d ∧ c' = { c with reg := some d, pc := setPc c.pc i (.writing n p d) })
    ∨ (∃ n p d, c.pc i = .writing n p d ∧ c' = { c with
        dicts := fun k => if k = d then (c.dicts d).set n p else c.dicts k, pc := setPc c.pc i (.returned n p) }) := by
  unfold protStep at h
  cases hp : c.pc i with
  | start n p =>
    rw [hp] at h
    cases hr : c.reg with
    | some d => simp only [hr] at h; cases h; exact .inl ⟨n, p, d, rfl, rfl, rfl⟩
    | none => simp only [hr] at h; cases h; exact .inr (.inl ⟨n, p, rfl, rfl, rfl⟩)
  | testing n p d =>
    rw [hp] at h
    cases hr : c.reg with
    | some e => simp only [hr] at h; cases h; exact .inr (.inr (.inl ⟨n, p, d, e, rfl, rfl, rfl⟩))
    | none => simp only [hr] at h; cases h; exact .inr (.inr (.inr (.inl ⟨n, p, d, rfl, rfl, rfl⟩)))
  | storing n p d => rw [hp] at h; cases h; exact .inr (.inr (.inr (.inr (.inl ⟨n, p, d, rfl, rfl⟩))))
  | writing n p d => rw [hp] at h; cases h; exact .inr (.inr (.inr (.inr (.inr ⟨n, p, d, rfl, rfl⟩))))
  | idle => rw [hp] at h; cases h
  | returned n p => rw [hp] at h; cases h
  | duplication n p => rw [hp] at h; cases h

/-- No thread has begun. -/
def Fresh0 (c : ProtCfg) : Prop := ∀ i, c.pc i = .idle ∨ ∃ n p, c.pc i = .start n p

/-- **C56** Whatever the schedule, what the class's checker requires was declared: an entry is from the checker
the class had at first, or was written by a call for that very name and permission that has returned. -/
theorem C56_nothing_invented (c0 : ProtCfg) (h0 : Fresh0 c0) (hr : ∀ d, c0.reg = some d → d < c0.next) (sched : List Nat) (d : Nat)
    (hd : (protRun c0 sched).reg = some d) (n : Name) (p : Val) (hn : ((protRun c0 sched).dicts d).get? n = some p) :
    (c0.reg = some d ∧ (c0.dicts d).get? n = some p) ∨ ∃ i, (protRun c0 sched).pc i = .returned n p := by
  -- dictionaries in use: new ones, or the one registered at first
  have inv : (∀ e, (protRun c0 sched).reg = some e → (c0.next ≤ e ∨ c0.reg = some e) ∧ e < (protRun c0 sched).next)
      ∧ (∀ i m q e, (protRun c0 sched).pc i = .testing m q e ∨ (protRun c0 sched).pc i = .storing m q e ∨ (protRun c0 sched).pc i = .writing m q e →
          (c0.next ≤ e ∨ c0.reg = some e) ∧ e < (protRun c0 sched).next)
      ∧ (c0.next ≤ (protRun c0 sched).next)
      ∧ (∀ e, e < (protRun c0 sched).next → ∀ m q, ((protRun c0 sched).dicts e).get? m = some q →
          (e < c0.next ∧ (c0.dicts e).get? m = some q) ∨ ∃ i, (protRun c0 sched).pc i = .returned m q) := by
    refine protRun_inv (fun c => (∀ e, c.reg = some e → (c0.next ≤ e ∨ c0.reg = some e) ∧ e < c.next)
      ∧ (∀ i m q e, c.pc i = .testing m q e ∨ c.pc i = .storing m q e ∨ c.pc i = .writing m q e →
          (c0.next ≤ e ∨ c0.reg = some e) ∧ e < c.next)
      ∧ (c0.next ≤ c.next)
      ∧ (∀ e, e < c.next → ∀ m q, (c.dicts e).get? m = some q →
          (e < c0.next ∧ (c0.dicts e).get? m = some q) ∨ ∃ i, c.pc i = .returned m q)) ?_ c0 sched ?_
    · rintro c i c' ⟨g1, g2, g3, g4⟩ hs
      have keep : ∀ {pc' : ProtPc} {m q}, (∀ m q, c.pc i ≠ .returned m q) →
          (∃ j, c.pc j = .returned m q) → ∃ j, setPc c.pc i pc' j = .returned m q := by
        rintro pc' m q hni ⟨j, hj⟩
        refine ⟨j, ?_⟩
        rw [setPc_ne _ _ (by rintro rfl; exact hni _ _ hj)]
        exact hj
      have upd : ∀ {pc' : ProtPc} {N : Nat}, c.next ≤ N →
          (∀ m q e, pc' = .testing m q e ∨ pc' = .storing m q e ∨ pc' = .writing m q e → (c0.next ≤ e ∨ c0.reg = some e) ∧ e < N) →
          ∀ j m q e, setPc c.pc i pc' j = .testing m q e ∨ setPc c.pc i pc' j = .storing m q e ∨ setPc c.pc i pc' j = .writing m q e →
          (c0.next ≤ e ∨ c0.reg = some e) ∧ e < N := by
        intro pc' N hN h j m q e hj
        by_cases hji : j = i
        · subst hji; rw [setPc_self] at hj; exact h m q e hj
        · rw [setPc_ne _ _ hji] at hj
          exact ⟨(g2 j m q e hj).1, Nat.lt_of_lt_of_le (g2 j m q e hj).2 hN⟩
      rcases protStep_cases hs with ⟨n, p, d, h1, h2, rfl⟩ | ⟨n, p, h1, h2, rfl⟩ | ⟨n, p, d, e, h1, h2, rfl⟩ | ⟨n, p, d, h1, h2, rfl⟩
        | ⟨n, p, d, h1, rfl⟩ | ⟨n, p, d, h1, rfl⟩
      · refine ⟨g1, upd (Nat.le_refl _) ?_, g3, fun e he m q hm => ?_⟩
        · rintro m q e (h | h | h) <;> cases h
          exact g1 d h2
        · exact (g4 e he m q hm).imp id (keep (by rw [h1]; simp))
      · refine ⟨(fun e he => by rw [h2] at he; cases he), upd (Nat.le_succ _) ?_, Nat.le_succ_of_le g3, fun e he m q hm => ?_⟩
        · rintro m q e (h | h | h) <;> cases h
          exact ⟨.inl g3, Nat.lt_succ_self _⟩
        · simp only at hm
          by_cases hen : e = c.next
          · rw [if_pos hen] at hm; cases hm
          · rw [if_neg hen] at hm
            exact (g4 e (by simp only at he; omega) m q hm).imp id (keep (by rw [h1]; simp))
      · refine ⟨g1, upd (Nat.le_refl _) ?_, g3, fun e he m q hm => ?_⟩
        · rintro m q e (h | h | h) <;> cases h
        · exact (g4 e he m q hm).imp id (keep (by rw [h1]; simp))
      · refine ⟨g1, upd (Nat.le_refl _) ?_, g3, fun e he m q hm => ?_⟩
        · rintro m q e (h | h | h) <;> cases h
          exact g2 i n p d (.inl h1)
        · exact (g4 e he m q hm).imp id (keep (by rw [h1]; simp))
      · refine ⟨fun e he => ?_, upd (Nat.le_refl _) ?_, g3, fun e he m q hm => ?_⟩
        · cases he; exact g2 i n p d (.inr (.inl h1))
        · rintro m q e (h | h | h) <;> cases h
          exact g2 i n p d (.inr (.inl h1))
        · exact (g4 e he m q hm).imp id (keep (by rw [h1]; simp))
      · refine ⟨g1, upd (Nat.le_refl _) ?_, g3, fun e he m q hm => ?_⟩
        · rintro m q e (h | h | h) <;> cases h
        · simp only at hm
          by_cases hed : e = d
          · subst hed
            rw [if_pos rfl] at hm
            by_cases hmn : n = m
            · subst hmn
              rw [PyDict.get?_set_self] at hm
              cases hm
              exact .inr ⟨i, by simp⟩
            · rw [PyDict.get?_set_ne _ _ hmn] at hm
              exact (g4 e he m q hm).imp id (keep (by rw [h1]; simp))
          · rw [if_neg hed] at hm
            exact (g4 e he m q hm).imp id (keep (by rw [h1]; simp))
    · refine ⟨fun e he => ⟨.inr he, hr e he⟩, fun i m q e h => ?_, Nat.le_refl _, fun e he m q hm => .inl ⟨he, hm⟩⟩
      rcases h0 i with h' | ⟨a, b, h'⟩ <;> rw [h'] at h <;> simp at h
  obtain ⟨i1, _, _, i4⟩ := inv
  obtain ⟨h1, h2⟩ := i1 d hd
  rcases i4 d h2 n p hn with ⟨h3, h4⟩ | h
  · rcases h1 with h1 | h1
    · exact absurd h1 (by omega)
    · exact .inl ⟨h1, h4⟩
  · exact .inr h

/-- The declaration a thread is making. -/
def declOf : ProtPc → Option (Name × Val)
  | .idle => none
  | .start n p | .testing n p _ | .storing n p _ | .writing n p _ | .returned n p | .duplication n p => some (n, p)

/-- **C56** Threads stay with the declaration they were called with. -/
theorem C56_calls_kept (c0 : ProtCfg) (sched : List Nat) (i : Nat) : declOf ((protRun c0 sched).pc i) = declOf (c0.pc i) := by
  refine protRun_inv (fun c => declOf (c.pc i) = declOf (c0.pc i)) ?_ c0 sched rfl
  intro c j c' hI hs
  by_cases hj : i = j
  · subst hj
    rcases protStep_cases hs with ⟨_, _, _, h1, _, rfl⟩ | ⟨_, _, h1, _, rfl⟩ | ⟨_, _, _, _, h1, _, rfl⟩ | ⟨_, _, _, h1, _, rfl⟩
      | ⟨_, _, _, h1, rfl⟩ | ⟨_, _, _, h1, rfl⟩ <;> simp only [setPc_self] <;> rw [← hI, h1] <;> rfl
  · rcases protStep_cases hs with ⟨_, _, _, h1, _, rfl⟩ | ⟨_, _, h1, _, rfl⟩ | ⟨_, _, _, _, h1, _, rfl⟩ | ⟨_, _, _, h1, _, rfl⟩
      | ⟨_, _, _, h1, rfl⟩ | ⟨_, _, _, h1, rfl⟩ <;> simpa only [setPc_ne _ _ hj] using hI

/-- **C56** If the class has a checker before the threads begin, no declaration is lost and none fails: when a call for
a name has returned and no other thread declares that name, the checker requires its permission. -/
theorem C56_with_checker (c0 : ProtCfg) (h0 : Fresh0 c0) (d : Nat) (hr : c0.reg = some d) (sched : List Nat) (i : Nat) (n : Name) (p : Val)
    (hi : c0.pc i = .start n p) (honly : ∀ j q, j ≠ i → c0.pc j ≠ .start n q) :
    (protRun c0 sched).reg = some d
    ∧ ((protRun c0 sched).pc i = .start n p ∨ (protRun c0 sched).pc i = .writing n p d
      ∨ ((protRun c0 sched).pc i = .returned n p ∧ ((protRun c0 sched).dicts d).get? n = some p)) := by
  have inv : (protRun c0 sched).reg = some d
      ∧ (∀ j, (protRun c0 sched).pc j = .idle ∨ ∃ m q, c0.pc j = .start m q
          ∧ ((protRun c0 sched).pc j = .start m q ∨ (protRun c0 sched).pc j = .writing m q d ∨ (protRun c0 sched).pc j = .returned m q))
      ∧ ((protRun c0 sched).pc i = .returned n p → ((protRun c0 sched).dicts d).get? n = some p) := by
    refine protRun_inv (fun c => c.reg = some d
      ∧ (∀ j, c.pc j = .idle ∨ ∃ m q, c0.pc j = .start m q ∧ (c.pc j = .start m q ∨ c.pc j = .writing m q d ∨ c.pc j = .returned m q))
      ∧ (c.pc i = .returned n p → (c.dicts d).get? n = some p)) ?_ c0 sched ?_
    · rintro c j c' ⟨g1, g2, g3⟩ hs
      have upd : ∀ {pc' : ProtPc} {m q}, c0.pc j = .start m q → (pc' = .start m q ∨ pc' = .writing m q d ∨ pc' = .returned m q) →
          ∀ j', setPc c.pc j pc' j' = .idle ∨ ∃ m q, c0.pc j' = .start m q
            ∧ (setPc c.pc j pc' j' = .start m q ∨ setPc c.pc j pc' j' = .writing m q d ∨ setPc c.pc j pc' j' = .returned m q) := by
        intro pc' m q h1 h2 j'
        by_cases hj : j' = j
        · subst hj; rw [setPc_self]; exact .inr ⟨m, q, h1, h2⟩
        · rw [setPc_ne _ _ hj]; exact g2 j'
      rcases protStep_cases hs with ⟨m, q, e, h1, h2, rfl⟩ | ⟨m, q, h1, h2, rfl⟩ | ⟨m, q, e, e', h1, h2, rfl⟩ | ⟨m, q, e, h1, h2, rfl⟩
        | ⟨m, q, e, h1, rfl⟩ | ⟨m, q, e, h1, rfl⟩
      · rw [g1] at h2; cases h2
        have hc : c0.pc j = .start m q := by
          rcases g2 j with h | ⟨m', q', h, h' | h' | h'⟩ <;> rw [h1] at * <;> simp_all
        refine ⟨g1, upd hc (.inr (.inl rfl)), fun h => g3 ?_⟩
        replace h : setPc c.pc j (.writing m q d) i = .returned n p := h
        by_cases hj : i = j
        · subst hj; rw [setPc_self] at h; cases h
        · rw [setPc_ne _ _ hj] at h; exact h
      · rw [g1] at h2; cases h2
      · exfalso
        rcases g2 j with h | ⟨m', q', h, h' | h' | h'⟩ <;> simp_all
      · rw [g1] at h2; cases h2
      · exfalso
        rcases g2 j with h | ⟨m', q', h, h' | h' | h'⟩ <;> simp_all
      · have hc : c0.pc j = .start m q ∧ e = d := by
          rcases g2 j with h | ⟨m', q', h, h' | h' | h'⟩ <;> simp_all
        obtain ⟨hc, rfl⟩ := hc
        refine ⟨g1, upd hc (.inr (.inr rfl)), fun h => ?_⟩
        replace h : setPc c.pc j (.returned m q) i = .returned n p := h
        simp only [if_true]
        by_cases hj : i = j
        · subst hj
          rw [setPc_self] at h
          cases h
          simp
        · rw [setPc_ne _ _ hj] at h
          have hmn : m ≠ n := by rintro rfl; exact honly j q (Ne.symm hj) hc
          rw [PyDict.get?_set_ne _ _ hmn]
          exact g3 h
    · refine ⟨hr, fun j => ?_, (fun h => by rw [hi] at h; cases h)⟩
      rcases h0 j with h | ⟨m, q, h⟩
      · exact .inl h
      · exact .inr ⟨m, q, h, .inl h⟩
  obtain ⟨i1, i2, i3⟩ := inv
  refine ⟨i1, ?_⟩
  rcases i2 i with h | ⟨m, q, h, h'⟩
  · exfalso
    -- a thread that has begun is never idle again
    have : (protRun c0 sched).pc i ≠ .idle := by
      refine protRun_inv (fun c => c.pc i ≠ .idle) ?_ c0 sched (by rw [hi]; simp)
      intro c j c' hI hs
      by_cases hj : i = j
      · subst hj
        rcases protStep_cases hs with ⟨_, _, _, _, _, rfl⟩ | ⟨_, _, _, _, rfl⟩ | ⟨_, _, _, _, _, _, rfl⟩ | ⟨_, _, _, _, _, rfl⟩
          | ⟨_, _, _, _, rfl⟩ | ⟨_, _, _, _, rfl⟩ <;> simp
      · rcases protStep_cases hs with ⟨_, _, _, _, _, rfl⟩ | ⟨_, _, _, _, rfl⟩ | ⟨_, _, _, _, _, _, rfl⟩ | ⟨_, _, _, _, _, rfl⟩
          | ⟨_, _, _, _, rfl⟩ | ⟨_, _, _, _, rfl⟩ <;> simpa only [setPc_ne _ _ hj] using hI
    exact this h
  · rw [hi] at h; cases h
    rcases h' with h' | h' | h'
    · exact .inl h'
    · exact .inr (.inl h')
    · exact .inr (.inr ⟨h', i3 h'⟩)

/-- **C56** If it has none, a declaration can be lost: both calls return, the checker lacks the name of one of
them (which is then forbidden). -/
theorem C56_lost : ∃ (c0 : ProtCfg) (sched : List Nat), c0.reg = none ∧ c0.pc 0 = .start "a" Ex.view ∧ c0.pc 1 = .start "b" Ex.edit
    ∧ (protRun c0 sched).pc 0 = .returned "a" Ex.view ∧ (protRun c0 sched).pc 1 = .returned "b" Ex.edit
    ∧ ∃ d, (protRun c0 sched).reg = some d ∧ ((protRun c0 sched).dicts d).get? "a" = none :=
  ⟨⟨none, fun _ => [], 0, fun i => if i = 0 then .start "a" Ex.view else .start "b" Ex.edit⟩, [0, 1, 0, 1, 0, 0, 1, 1],
    rfl, rfl, rfl, rfl, rfl, _, rfl, rfl⟩

/-- The hypotheses of `C56_with_checker`. -/
example : ∃ c0 : ProtCfg, Fresh0 c0 ∧ c0.reg = some 0 ∧ c0.pc 0 = .start "a" Ex.view ∧ (∀ j q, j ≠ 0 → c0.pc j ≠ .start "a" q)
    ∧ ((protRun c0 [1, 0, 0, 1]).dicts 0).get? "a" = some Ex.view :=
  ⟨⟨some 0, fun _ => [], 1, fun i => if i = 0 then .start "a" Ex.view else .start "b" Ex.edit⟩,
    fun i => by by_cases h : i = 0 <;> simp [h], rfl, rfl, fun j q h => by simp [h], rfl⟩

end ZS.Props
