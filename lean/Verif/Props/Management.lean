import Verif.Model.Management
import Verif.Spec.Management
import Verif.Spec.Checks
import Verif.Lemmas.Checks
import Verif.Lemmas.Pres
import Verif.Examples.World

/-!
# C23-C29, C52: interactions and policies
-/

namespace ZS.Props
open Spec
variable {A : Type}

/-- `newInteraction` as a call whose outcome shows the interaction now installed. -/
def newAndQuery (X : Ctx A) (ps : List Nat) : M A Val := do
  newInteraction X ps
  queryInteraction X

/-- A policy as a value. -/
def policyVal : Policy → Val
  | .paranoid => .type "ParanoidSecurityPolicy"
  | .permissive => .type "PermissiveSecurityPolicy"
  | .custom f => f

/-- Carry out a call in the thread of the context. -/
def exec (X : Ctx A) : MCall → M A Val
  | .new ps => newAndQuery X ps
  | .end_ => do endInteraction X; pure .none
  | .restore => do restoreInteraction X; pure .none
  | .query => queryInteraction X
  | .get => getInteraction X
  | .setPolicy p => do let q ← setSecurityPolicy p; pure (policyVal q)
  | .getPolicy => do let q ← getSecurityPolicy; pure (policyVal q)
  | .clearPolicy => do clearPolicy; pure .none
  | .check p o i => checkPermission X p o i
  | .add i p => do ixAdd i p; pure .none
  | .remove i p => do ixRemove i p; pure .none

/-- An interleaving: each element is a thread with the call it makes.  The result lists what
happened and the final state; exceptions are caught by the callers. -/
def interleave (X : Ctx A) : List (Nat × MCall) → St A → List (Nat × MCall × Res Val) × St A
  | [], s => ([], s)
  | (t, c) :: r, s =>
    let out := exec { X with tid := t } c s
    let rest := interleave X r out.2
    ((t, c, out.1) :: rest.1, rest.2)

/-- What one thread saw of it. -/
def seenBy (t : Nat) (l : List (Nat × MCall × Res Val)) : List (MCall × Res Val) :=
  (l.filter fun e => e.1 == t).map fun e => (e.2.1, e.2.2)

/-- The two slots of a thread. -/
def slots (s : St A) (t : Nat) : Option Val × Option Val := ((s.threads t).interaction, (s.threads t).previous)

/-- Foreign policies and interactions do not themselves switch interactions. -/
def Quiet (W : World A) : Prop := ∀ r s, (W.apply r s).2.threads = s.threads

theorem quiet_keeps {W : World A} (h : Quiet W) (t0 : Nat → Slots) : Keeps (fun s => s.threads = t0) W where
  apply := fun r s hs => by rw [h r s, hs]
  trace := fun s l hs => hs
  nextId := fun s hs => hs

theorem ixAdd_threads (t0 : Nat → Slots) (i p : Nat) : Pres (fun s : St A => s.threads = t0) (ixAdd i p) := by
  unfold ixAdd
  exact .bind .get fun s => .ite (.throw _) (.bind (.modify fun _ h => h) fun _ => .modify fun _ h => h)

theorem ixRemove_threads (t0 : Nat → Slots) (i p : Nat) : Pres (fun s : St A => s.threads = t0) (ixRemove i p) := by
  unfold ixRemove
  exact .bind .get fun s => .ite (.throw _) (.ite (.throw _)
    (.bind (.modify fun _ h => h) fun _ => .modify fun _ h => h))

theorem ixAddAll_threads (t0 : Nat → Slots) (i : Nat) (ps : List Nat) :
    Pres (fun s : St A => s.threads = t0) (ixAddAll i ps) := by
  induction ps with
  | nil => exact .pure _
  | cons p r ih => exact .bind (ixAdd_threads t0 i p) fun _ => ih

theorem newIx_threads (t0 : Nat → Slots) (b : Bool) (ps : List Nat) :
    Pres (fun s : St A => s.threads = t0) (newIx b ps) := by
  unfold newIx
  exact .bind .get fun s => .bind (.modify fun _ h => h) fun _ => .bind (ixAddAll_threads t0 _ ps) fun _ => .pure _

theorem callPolicy_threads {X : Ctx A} (hq : Quiet X.W) (t0 : Nat → Slots) (p : Policy) (ps : List Nat) :
    Pres (fun s : St A => s.threads = t0) (callPolicy X p ps) := by
  cases p with
  | paranoid => exact newIx_threads t0 _ ps
  | permissive => exact newIx_threads t0 _ ps
  | custom f => exact .probe (quiet_keeps hq t0) _

theorem ixCheck_threads {X : Ctx A} (hq : Quiet X.W) (t0 : Nat → Slots) (ix perm obj : Val) :
    Pres (fun s : St A => s.threads = t0) (ixCheckPermission X ix perm obj) := by
  unfold ixCheckPermission
  split
  · exact .bind .get fun s => .ite (.pure _) (.pure _)
  · exact .probe (quiet_keeps hq t0) _

/-- Outcome and effect on the slots of `newInteraction`. -/
theorem new_step {X : Ctx A} (hq : Quiet X.W) (ps : List Nat) (s : St A) :
    Step (slots s X.tid) (.new ps) (newAndQuery X ps s).1 (slots (newAndQuery X ps s).2 X.tid)
    ∧ ∀ u, u ≠ X.tid → (newAndQuery X ps s).2.threads u = s.threads u := by
  by_cases hb : ((s.threads X.tid).interaction.getD .none) = .none
  · have hidle : Idle (s.threads X.tid).interaction := by
      cases hi : (s.threads X.tid).interaction with
      | none => exact .inl rfl
      | some v => rw [hi] at hb; exact .inr (by simpa using hb)
    have hp := callPolicy_threads hq s.threads s.policy ps s rfl
    rcases hc : callPolicy X s.policy ps s with ⟨r, s1⟩
    rw [hc] at hp
    simp only at hp
    have hrun : newAndQuery X ps s = match r with
        | .ok ix => (.ok ix, { s1 with threads := fun u => if u = X.tid then { s1.threads X.tid with interaction := some ix } else s1.threads u })
        | .err e => (.err e, s1)
        | .diverge => (.diverge, s1) := by
      unfold newAndQuery newInteraction queryInteraction getSecurityPolicy setSlots
      simp only [run_bind, run_get, run_pure, hb]
      simp only [ne_eq, not_true_eq_false, if_false, run_bind, run_get, run_pure, hc]
      cases r <;> simp
    rw [hrun]
    cases r with
    | ok ix =>
      simp only [slots, if_true, hp]
      exact ⟨.newOk ix hidle, fun u hu => by rw [if_neg hu]⟩
    | err e => simp only [slots, hp]; exact ⟨.newFails hidle, fun _ _ => trivial⟩
    | diverge => simp only [slots, hp]; exact ⟨.newHangs hidle, fun _ _ => trivial⟩
  · have hrun : newAndQuery X ps s = (.err .existingInteraction, s) := by
      unfold newAndQuery newInteraction queryInteraction
      simp only [run_bind, run_get, run_pure]
      rw [if_pos hb]
      rfl
    rw [hrun]
    cases hi : (s.threads X.tid).interaction with
    | none => rw [hi] at hb; exact absurd rfl hb
    | some v =>
      rw [hi] at hb
      simp only [slots, hi]
      exact ⟨.newBusy hb, fun _ _ => trivial⟩

/-- Every call is a step of the machine of the calling thread and leaves all others alone. -/
theorem exec_step {X : Ctx A} (hq : Quiet X.W) (c : MCall) (s : St A) :
    Step (slots s X.tid) c (exec X c s).1 (slots (exec X c s).2 X.tid)
    ∧ ∀ u, u ≠ X.tid → (exec X c s).2.threads u = s.threads u := by
  cases c with
  | new ps => exact new_step hq ps s
  | end_ =>
    simp only [exec, endInteraction, run_bind, run_get, slots]
    cases hi : (s.threads X.tid).interaction with
    | some v =>
      simp only [setSlots, run_bind, run_modify, run_pure, if_true, hi]
      exact ⟨.end_, fun u hu => by simp [hu]⟩
    | none =>
      simp only [setSlots, run_modify, run_pure, if_true, hi]
      exact ⟨.endNone, fun u hu => by simp [hu]⟩
  | restore =>
    simp only [exec, restoreInteraction, run_bind, run_get, slots]
    cases hi : (s.threads X.tid).previous with
    | some v =>
      simp only [setSlots, run_modify, run_pure, if_true, hi]
      exact ⟨.restore, fun u hu => by simp [hu]⟩
    | none =>
      simp only [setSlots, run_modify, run_pure, if_true, hi]
      exact ⟨.restoreNone, fun u hu => by simp [hu]⟩
  | query =>
    simp only [exec, queryInteraction, run_bind, run_get, run_pure, slots]
    cases hi : (s.threads X.tid).interaction with
    | some v => exact ⟨.query, fun _ _ => trivial⟩
    | none => exact ⟨.queryNone, fun _ _ => trivial⟩
  | get =>
    simp only [exec, getInteraction, run_bind, run_get, slots]
    cases hi : (s.threads X.tid).interaction with
    | some v => simp only [run_pure, hi]; exact ⟨.get, fun _ _ => trivial⟩
    | none => simp only [run_throw, hi]; exact ⟨.getNone, fun _ _ => trivial⟩
  | setPolicy p => exact ⟨.setPolicy, fun _ _ => rfl⟩
  | getPolicy => exact ⟨.getPolicy, fun _ _ => rfl⟩
  | clearPolicy => exact ⟨.clearPolicy, fun _ _ => rfl⟩
  | check p o i =>
    have hfix : ∀ ix, (ixCheckPermission X ix p o s).2.threads = s.threads :=
      fun ix => ixCheck_threads hq s.threads ix p o s rfl
    simp only [exec, checkPermission, run_ite, run_bind, run_get]
    by_cases hp : p = publicV ∨ p = .none
    · rw [if_pos hp]; exact ⟨.checkPublic hp, fun _ _ => rfl⟩
    · rw [if_neg hp]
      have hp1 : p ≠ publicV := fun h => hp (.inl h)
      have hp2 : p ≠ .none := fun h => hp (.inr h)
      by_cases hi : i = .none
      · subst hi
        rw [if_pos rfl]
        cases hc : (s.threads X.tid).interaction with
        | none =>
          simp only [run_throw, slots, hc]
          exact ⟨.checkNone hp1 hp2, fun _ _ => trivial⟩
        | some ix =>
          simp only [slots, hc, hfix]
          exact ⟨.checkCurrent hp1 hp2, fun _ _ => trivial⟩
      · rw [if_neg hi]
        simp only [slots, hfix]
        exact ⟨.checkGiven hp1 hp2 hi, fun _ _ => trivial⟩
  | add i p =>
    have h : (exec X (.add i p) s).2.threads = s.threads :=
      Pres.bind (ixAdd_threads s.threads i p) (fun _ => .pure _) s rfl
    simp only [slots, h]; exact ⟨.add, fun _ _ => trivial⟩
  | remove i p =>
    have h : (exec X (.remove i p) s).2.threads = s.threads :=
      Pres.bind (ixRemove_threads s.threads i p) (fun _ => .pure _) s rfl
    simp only [slots, h]; exact ⟨.remove, fun _ _ => trivial⟩

/-- **C23** In every interleaving of calls by any number of threads, what a thread sees is a run of
the private two-slot machine driven by that thread's own calls only. -/
theorem C23_private_machine (X : Ctx A) (hq : Quiet X.W) (h : List (Nat × MCall)) (s : St A) (t : Nat) :
    Runs (slots s t) (seenBy t (interleave X h s).1) (slots (interleave X h s).2 t) := by
  induction h generalizing s with
  | nil => exact .nil
  | cons e r ih =>
    obtain ⟨u, c⟩ := e
    have hst := exec_step (X := { X with tid := u }) hq c s
    have hr := ih (exec { X with tid := u } c s).2
    simp only [interleave, seenBy, List.filter_cons] at hr ⊢
    by_cases hu : u = t
    · subst hu
      simp only [beq_self_eq_true, if_true, List.map_cons]
      exact .cons hst.1 hr
    · have : (u == t) = false := by simpa using hu
      simp only [this, Bool.false_eq_true, if_false]
      have h1 := hst.2 t (Ne.symm hu)
      have : slots (exec { X with tid := u } c s).2 t = slots s t := by simp only [slots, h1]
      rw [this] at hr
      exact hr

/-- The machine is deterministic in its slots, given the interaction the policy returned: the
outcome of every call but `newInteraction`'s own result and a policy's answers is determined. -/
theorem C23_machine_determined {sl sl1 sl2 : Option Val × Option Val} {c : MCall} {r1 r2 : Res Val}
    (h1 : Step sl c r1 sl1) (h2 : Step sl c r2 sl2) :
    ((∀ ps, c ≠ .new ps) → sl1 = sl2)
    ∧ (∀ v, v ≠ .none → sl.1 = some v → ∀ ps, c = .new ps → r1 = .err .existingInteraction ∧ sl1 = sl)
    ∧ (c = .query ∨ c = .get ∨ c = .end_ ∨ c = .restore → r1 = r2) := by
  refine ⟨fun hn => ?_, fun v hv hs ps hc => ?_, fun hc => ?_⟩
  · cases h1 <;> cases h2 <;> first | rfl | (exfalso; exact hn _ rfl)
  · subst hc
    cases h1 with
    | newBusy h => exact ⟨rfl, rfl⟩
    | newOk ix h => rcases h with h | h <;> simp_all
    | newFails h => rcases h with h | h <;> simp_all
    | newHangs h => rcases h with h | h <;> simp_all
  · rcases hc with rfl | rfl | rfl | rfl <;> cases h1 <;> cases h2 <;> rfl

example : Quiet Ex.W := by
  intro r s
  simp only [Ex.W]
  split <;> rfl

/-- Two threads with their own interactions. -/
example : (interleave (Ex.X .c) [(0, .new []), (1, .query), (1, .new []), (0, .new []), (0, .end_), (1, .get)] Ex.s0).1
    = [(0, .new [], .ok (.ix 100)), (1, .query, .ok .none), (1, .new [], .ok (.ix 101)),
       (0, .new [], .err .existingInteraction), (0, .end_, .ok .none), (1, .get, .ok (.ix 101))] := by decide

/-- Foreign code running in the thread of the context does not touch the slots of thread `u`
(it has only the API, which acts on the thread it runs in). -/
def Foreign (W : World A) (u : Nat) : Prop := ∀ r s, (W.apply r s).2.threads u = s.threads u

theorem foreign_keeps {W : World A} {u : Nat} (h : Foreign W u) (sl : Slots) :
    Keeps (fun s => s.threads u = sl) W where
  apply := fun r s hs => by rw [h r s, hs]
  trace := fun s l hs => hs
  nextId := fun s hs => hs

theorem setSlots_other {u t : Nat} (h : u ≠ t) (sl : Slots) (f : Slots → Slots) :
    Pres (fun s : St A => s.threads u = sl) (setSlots t f) := by
  intro s hs
  simp only [setSlots, run_modify]
  rw [if_neg h]; exact hs

/-- **C24** No call made by a thread changes the slots of another one, even if policies and
interactions are foreign code that themselves start and end interactions in the calling thread. -/
theorem C24_other_threads (X : Ctx A) (u : Nat) (hu : u ≠ X.tid) (hw : Foreign X.W u) (c : MCall) (s : St A) :
    (exec X c s).2.threads u = s.threads u := by
  have hk := foreign_keeps hw (s.threads u)
  have hadd : ∀ i p, Pres (fun s' : St A => s'.threads u = s.threads u) (ixAdd i p) := fun i p => by
    unfold ixAdd
    exact .bind .get fun s => .ite (.throw _) (.bind (.modify fun _ h => h) fun _ => .modify fun _ h => h)
  have hrem : ∀ i p, Pres (fun s' : St A => s'.threads u = s.threads u) (ixRemove i p) := fun i p => by
    unfold ixRemove
    exact .bind .get fun s => .ite (.throw _) (.ite (.throw _)
      (.bind (.modify fun _ h => h) fun _ => .modify fun _ h => h))
  have haddAll : ∀ i ps, Pres (fun s' : St A => s'.threads u = s.threads u) (ixAddAll i ps) := fun i ps => by
    induction ps with
    | nil => exact .pure _
    | cons p r ih => exact .bind (hadd i p) fun _ => ih
  have hnew : ∀ b ps, Pres (fun s' : St A => s'.threads u = s.threads u) (newIx b ps) := fun b ps => by
    unfold newIx
    exact .bind .get fun s => .bind (.modify fun _ h => h) fun _ => .bind (haddAll _ ps) fun _ => .pure _
  have hix : ∀ ix p o, Pres (fun s' : St A => s'.threads u = s.threads u) (ixCheckPermission X ix p o) := fun ix p o => by
    unfold ixCheckPermission
    split
    · exact .bind .get fun s => .ite (.pure _) (.pure _)
    · exact .probe hk _
  have hset := fun f => setSlots_other (A := A) hu (s.threads u) f
  have hquery : Pres (fun s' : St A => s'.threads u = s.threads u) (queryInteraction X) := .bind .get fun _ => .pure _
  have main : Pres (fun s' : St A => s'.threads u = s.threads u) (exec X c) := by
    cases c with
    | new ps =>
      refine .bind (.bind hquery fun q => .ite (.throw _) (.bind (.bind .get fun _ => .pure _) fun p =>
        .bind ?_ fun ix => hset _)) fun _ => hquery
      cases p with
      | paranoid => exact hnew _ ps
      | permissive => exact hnew _ ps
      | custom f => exact .probe hk _
    | end_ =>
      refine .bind (.bind .get fun s => ?_) fun _ => .pure _
      split
      · exact .bind (hset _) fun _ => hset _
      · exact hset _
    | restore =>
      refine .bind (.bind .get fun s => ?_) fun _ => .pure _
      split
      · exact hset _
      · exact hset _
    | query => exact hquery
    | get =>
      refine .bind .get fun s => ?_
      split
      · exact .pure _
      · exact .throw _
    | setPolicy p => exact .bind (.bind .get fun _ => .bind (.modify fun _ h => h) fun _ => .pure _) fun _ => .pure _
    | getPolicy => exact .bind (.bind .get fun _ => .pure _) fun _ => .pure _
    | clearPolicy => exact .bind (.modify fun _ h => h) fun _ => .pure _
    | check p o i =>
      refine .ite (.pure _) (.ite (.bind .get fun s => ?_) (hix i p o))
      split
      · exact hix _ p o
      · exact .throw _
    | add i p => exact .bind (hadd i p) fun _ => .pure _
    | remove i p => exact .bind (hrem i p) fun _ => .pure _
  exact main s rfl

/-! ## C25 -/

/-- **C25** End and restore, as equations on the whole state. -/
theorem C25_laws (X : Ctx A) (s : St A) :
    -- restoring after ending an active interaction brings back exactly that interaction
    (∀ v, (s.threads X.tid).interaction = some v →
      (exec X .restore (exec X .end_ s).2).2 =
        { s with threads := fun u => if u = X.tid then ⟨some v, some v⟩ else s.threads u })
    -- restoring twice is restoring once
    ∧ (exec X .restore (exec X .restore s).2).2 = (exec X .restore s).2
    -- ending when none is active discards the saved one: a following restore leaves none
    ∧ ((s.threads X.tid).interaction = none →
      slots (exec X .end_ s).2 X.tid = (none, none)
      ∧ slots (exec X .restore (exec X .end_ s).2).2 X.tid = (none, none))
    -- right after ending a new interaction can be started: the outcome is the policy's own
    ∧ (∀ ps, (exec X (.new ps) (exec X .end_ s).2).1 = (callPolicy X s.policy ps (exec X .end_ s).2).1)
    -- neither call ever raises
    ∧ (exec X .end_ s).1 = .ok .none ∧ (exec X .restore s).1 = .ok .none := by
  have hend : exec X .end_ s = (.ok .none, { s with threads := fun u => if u = X.tid then
      ⟨none, (s.threads X.tid).interaction⟩ else s.threads u }) := by
    simp only [exec, endInteraction, run_bind, run_get]
    cases hi : (s.threads X.tid).interaction with
    | some v =>
      simp only [setSlots, run_bind, run_modify, run_pure, if_true]
      congr 2; funext u; split <;> rfl
    | none =>
      simp only [setSlots, run_modify, run_pure]
      congr 2; funext u; rw [← hi]
  have hres : ∀ s : St A, exec X .restore s = (.ok .none, { s with threads := fun u => if u = X.tid then
      ⟨(s.threads X.tid).previous, (s.threads X.tid).previous⟩ else s.threads u }) := by
    intro s
    simp only [exec, restoreInteraction, run_bind, run_get]
    cases hi : (s.threads X.tid).previous with
    | some v =>
      simp only [setSlots, run_modify, run_pure]
      congr 2; funext u; rw [← hi]
    | none =>
      simp only [setSlots, run_modify, run_pure]
      congr 2; funext u; rw [← hi]
  refine ⟨fun v hv => ?_, ?_, fun hn => ?_, fun ps => ?_, by rw [hend], by rw [hres]⟩
  · rw [hend, hres]
    simp only [if_true, hv]
    congr 1; funext u; split <;> rfl
  · rw [hres, hres]
    simp only [if_true]
    congr 1; funext u; split <;> rfl
  · rw [hend, hres]
    simp only [slots, if_true, hn]
    exact ⟨trivial, trivial⟩
  · rw [hend]
    generalize hs' : ({ s with threads := fun u => if u = X.tid then
      (⟨none, (s.threads X.tid).interaction⟩ : Slots) else s.threads u } : St A) = s'
    have hidle : (s'.threads X.tid).interaction = none := by rw [← hs']; simp
    have hpol : s.policy = s'.policy := by rw [← hs']
    simp only [exec, newAndQuery, newInteraction, queryInteraction, getSecurityPolicy, run_bind, run_get,
      run_pure, hidle, hpol, Option.getD_none, ne_eq, not_true_eq_false, if_false]
    rcases callPolicy X s'.policy ps s' with ⟨r, s2⟩
    cases r <;> simp [setSlots]

/-- An interaction is ended, another one runs, and the first is restored. -/
example : (interleave (Ex.X .py) [(0, .new []), (0, .end_), (0, .restore), (0, .query), (0, .restore), (0, .query)] Ex.s0).1.map (·.2.2)
    = [.ok (.ix 100), .ok .none, .ok .none, .ok (.ix 100), .ok .none, .ok (.ix 100)] := by decide

/-! ## C26 -/

/-- **C26** `checkPermission` never consults anything for `CheckerPublic` and `None`; any other
permission gets exactly the answer of the given interaction or else of the thread's current
one, and NoInteraction without either. -/
theorem C26_entry_point (X : Ctx A) (s : St A) (obj i : Val) :
    checkPermission X publicV obj i s = (.ok (.bool true), s)
    ∧ checkPermission X .none obj i s = (.ok (.bool true), s)
    ∧ ∀ perm, perm ≠ publicV → perm ≠ .none →
      (i ≠ .none → checkPermission X perm obj i s = ixCheckPermission X i perm obj s)
      ∧ (∀ v, i = .none → (s.threads X.tid).interaction = some v →
          checkPermission X perm obj i s = ixCheckPermission X v perm obj s)
      ∧ (i = .none → (s.threads X.tid).interaction = none →
          checkPermission X perm obj i s = (.err .noInteraction, s)) := by
  refine ⟨rfl, rfl, fun perm h1 h2 => ?_⟩
  simp only [checkPermission, run_ite, run_bind, run_get]
  rw [if_neg (fun h => h.elim h1 h2)]
  refine ⟨fun h => by rw [if_neg h], fun v h hv => by rw [if_pos h, hv], fun h hv => by rw [if_pos h, hv]; rfl⟩

/-- The answer of an interaction: a built-in one decides as specified and without side effects,
a foreign one is asked once. -/
theorem C26_answer (X : Ctx A) (s : St A) (ix perm obj : Val) :
    (∀ i, ix = .ix i → (BuiltinGrants s i perm → ixCheckPermission X ix perm obj s = (.ok (.bool true), s))
      ∧ (¬ BuiltinGrants s i perm → ixCheckPermission X ix perm obj s = (.ok (.bool false), s)))
    ∧ ((∀ i, ix ≠ .ix i) → ixCheckPermission X ix perm obj s = probe X (.method ix "checkPermission" [perm, obj]) s) := by
  constructor
  · rintro i rfl
    simp only [ixCheckPermission, run_bind, run_get, run_ite]
    constructor
    · intro h
      split
      · rfl
      · next hp =>
        have : paranoidCheck s i perm = true := by
          rw [paranoidCheck_iff]
          rcases h with h | h
          · exact absurd h hp
          · exact h
        rw [this]; rfl
    · intro h
      rw [if_neg (fun hp => h (.inl hp))]
      have : paranoidCheck s i perm = false := by
        rw [Bool.eq_false_iff]
        intro hc
        exact h (.inr ((paranoidCheck_iff s i perm).mp hc))
      rw [this]; rfl
  · intro h
    cases ix <;> first | rfl | exact absurd rfl (h _)

/-- **C26** The string `zope.Public` is no public permission here: it is asked about like any
other. -/
theorem C26_string_not_special (X : Ctx A) (s : St A) (a : Nat) (obj : Val)
    (h : (s.threads X.tid).interaction = none) :
    checkPermission X (.str a "zope.Public") obj .none s = (.err .noInteraction, s) :=
  ((C26_entry_point X s obj .none).2.2 (.str a "zope.Public") (by simp [publicV]) (by simp)).2.2 rfl h

/-! ## C27 -/

/-- Bookkeeping of participations: membership and back pointer agree, no repetition, and
identifiers not handed out yet belong to no interaction. -/
structure Booked (s : St A) : Prop where
  agree : ∀ i p, p ∈ (s.ixs i).participations ↔ (s.parts p).interaction = .ix i
  nodup : ∀ i, (s.ixs i).participations.Nodup
  fresh : ∀ i, s.nextId ≤ i → (s.ixs i).participations = []

theorem ixAdd_cases (i p : Nat) (s : St A) :
    ((s.parts p).interaction ≠ .none → ixAdd i p s = (.err .valueError, s))
    ∧ ((s.parts p).interaction = .none → ixAdd i p s = (.ok (),
        { s with
          parts := fun q => if q = p then { s.parts p with interaction := .ix i } else s.parts q
          ixs := fun j => if j = i then { s.ixs i with participations := (s.ixs i).participations ++ [p] } else s.ixs j })) := by
  constructor
  · intro h; simp [ixAdd, run_bind, h]
  · intro h; simp [ixAdd, run_bind, h]

theorem ixRemove_cases (i p : Nat) (s : St A) :
    ((s.parts p).interaction ≠ .ix i ∨ p ∉ (s.ixs i).participations → ixRemove i p s = (.err .valueError, s))
    ∧ ((s.parts p).interaction = .ix i → p ∈ (s.ixs i).participations → ixRemove i p s = (.ok (),
        { s with
          parts := fun q => if q = p then { s.parts p with interaction := .none } else s.parts q
          ixs := fun j => if j = i then { s.ixs i with participations := (s.ixs i).participations.erase p } else s.ixs j })) := by
  constructor
  · intro h
    rcases h with h | h
    · simp [ixRemove, run_bind, h]
    · by_cases h1 : (s.parts p).interaction = .ix i
      · simp [ixRemove, run_bind, h, h1]
      · simp [ixRemove, run_bind, h1]
  · intro h1 h2; simp [ixRemove, run_bind, h1, h2]

theorem booked_add (i p : Nat) (s : St A) (hi : i < s.nextId) (h : Booked s) : Booked (ixAdd i p s).2 := by
  by_cases hp : (s.parts p).interaction = .none
  · rw [(ixAdd_cases i p s).2 hp]
    have hnot : ∀ j, p ∉ (s.ixs j).participations := by
      intro j hj
      have := (h.agree j p).mp hj
      rw [hp] at this; cases this
    refine ⟨fun j q => ?_, fun j => ?_, fun j hj => ?_⟩
    · simp only
      by_cases hji : j = i
      · subst hji
        simp only [if_true, List.mem_append, List.mem_singleton]
        by_cases hq : q = p
        · subst hq; simp
        · simp only [hq, or_false, if_false]; exact h.agree j q
      · simp only [if_neg hji]
        by_cases hq : q = p
        · subst hq
          simp only [if_true, Val.ix.injEq]
          constructor
          · intro hm; exact absurd hm (hnot j)
          · intro he; exact absurd he.symm hji
        · simp only [if_neg hq]; exact h.agree j q
    · simp only
      by_cases hji : j = i
      · subst hji
        simp only [if_true]
        rw [List.nodup_append]
        refine ⟨h.nodup j, by simp, ?_⟩
        intro a ha b hb
        simp only [List.mem_singleton] at hb
        subst hb
        rintro rfl
        exact hnot j ha
      · simp only [if_neg hji]; exact h.nodup j
    · simp only at hj ⊢
      rw [if_neg (by omega)]
      exact h.fresh j hj
  · rw [(ixAdd_cases i p s).1 hp]; exact h

theorem booked_remove (i p : Nat) (s : St A) (h : Booked s) : Booked (ixRemove i p s).2 := by
  by_cases hp : (s.parts p).interaction = .ix i
  · have hm := (h.agree i p).mpr hp
    rw [(ixRemove_cases i p s).2 hp hm]
    refine ⟨fun j q => ?_, fun j => ?_, fun j hj => ?_⟩
    · simp only
      by_cases hq : q = p
      · subst hq
        simp only [if_true]
        constructor
        · intro hmem
          exfalso
          by_cases hji : j = i
          · subst hji
            simp only [if_true] at hmem
            exact (List.Nodup.mem_erase_iff (h.nodup j)).mp hmem |>.1 rfl
          · simp only [if_neg hji] at hmem
            have := (h.agree j q).mp hmem
            rw [hp] at this
            cases this
            exact hji rfl
        · intro hc; cases hc
      · simp only [if_neg hq]
        rw [← h.agree j q]
        by_cases hji : j = i
        · subst hji
          simp only [if_true]
          rw [List.Nodup.mem_erase_iff (h.nodup j)]
          simp [hq]
        · simp only [if_neg hji]
    · simp only
      split
      · next hji => subst hji; exact (h.nodup j).erase p
      · exact h.nodup j
    · simp only at hj ⊢
      split
      · next hji => subst hji; rw [h.fresh j hj]; rfl
      · exact h.fresh j hj
  · rw [(ixRemove_cases i p s).1 (.inl hp)]; exact h

theorem booked_addAll (i : Nat) (ps : List Nat) (s : St A) (hi : i < s.nextId) (h : Booked s) :
    Booked (ixAddAll i ps s).2 ∧ (ixAddAll i ps s).2.nextId = s.nextId := by
  induction ps generalizing s with
  | nil => exact ⟨h, rfl⟩
  | cons p r ih =>
    have hb := booked_add i p s hi h
    by_cases hp : (s.parts p).interaction = .none
    · have he := (ixAdd_cases i p s).2 hp
      rw [he] at hb
      simp only [ixAddAll, run_bind, he]
      exact ih _ hi hb
    · have he := (ixAdd_cases i p s).1 hp
      simp only [ixAddAll, run_bind, he]
      exact ⟨h, trivial⟩

theorem booked_newIx (b : Bool) (ps : List Nat) (s : St A) (h : Booked s) : Booked (newIx b ps s).2 := by
  have h0 : Booked { s with nextId := s.nextId + 1, ixs := fun j => if j = s.nextId then ⟨b, []⟩ else s.ixs j } := by
    refine ⟨fun j q => ?_, fun j => ?_, fun j hj => ?_⟩
    · simp only
      split
      · next hj =>
        subst hj
        rw [← h.agree s.nextId q, h.fresh s.nextId (Nat.le_refl _)]
      · exact h.agree j q
    · simp only
      split
      · simp
      · exact h.nodup j
    · simp only at hj ⊢
      rw [if_neg (by omega)]
      exact h.fresh j (by omega)
  have := (booked_addAll s.nextId ps _ (by simp) h0).1
  simp only [newIx, run_bind, run_get, run_modify]
  revert this
  generalize ixAddAll s.nextId ps _ = out
  intro this
  obtain ⟨r, s'⟩ := out
  cases r <;> exact this

/-- The interactions a call names have been created. -/
def Valid (s : St A) : MCall → Prop
  | .add i _ => i < s.nextId
  | _ => True

/-- The calls of a history name only interactions created before. -/
def ValidRun (X : Ctx A) : List (Nat × MCall) → St A → Prop
  | [], _ => True
  | (t, c) :: r, s => Valid s c ∧ ValidRun X r (exec { X with tid := t } c s).2

theorem booked_slots (t : Nat) (f : Slots → Slots) (s : St A) (h : Booked s) : Booked (setSlots t f s).2 :=
  ⟨h.agree, h.nodup, h.fresh⟩

theorem booked_exec (X : Ctx A) (hw : ∀ r s, Booked s → Booked (X.W.apply r s).2) (c : MCall) (s : St A)
    (hv : Valid s c) (h : Booked s) : Booked (exec X c s).2 := by
  have hk : Keeps Booked X.W :=
    { apply := hw
      trace := fun s l h => ⟨h.agree, h.nodup, h.fresh⟩
      nextId := fun s h => ⟨h.agree, h.nodup, fun j hj => h.fresh j (by simp only at hj; omega)⟩ }
  have hslots : ∀ t f, Pres (Booked (A := A)) (setSlots t f) := fun t f s h => booked_slots t f s h
  have hix : ∀ ix p o, Pres (Booked (A := A)) (ixCheckPermission X ix p o) := fun ix p o => by
    unfold ixCheckPermission
    split
    · exact .bind .get fun s => .ite (.pure _) (.pure _)
    · exact .probe hk _
  have hquery : Pres (Booked (A := A)) (queryInteraction X) := .bind .get fun _ => .pure _
  cases c with
  | new ps =>
    refine Pres.bind (P := Booked) (.bind hquery fun q => .ite (.throw _) (.bind (.bind .get fun _ => .pure _) fun p =>
      .bind ?_ fun ix => hslots _ _)) (fun _ => hquery) s h
    cases p with
    | paranoid => exact fun s h => booked_newIx false ps s h
    | permissive => exact fun s h => booked_newIx true ps s h
    | custom f => exact .probe hk _
  | end_ =>
    refine Pres.bind (P := Booked) (.bind .get fun s => ?_) (fun _ => .pure _) s h
    split
    · exact .bind (hslots _ _) fun _ => hslots _ _
    · exact hslots _ _
  | restore =>
    refine Pres.bind (P := Booked) (.bind .get fun s => ?_) (fun _ => .pure _) s h
    split
    · exact hslots _ _
    · exact hslots _ _
  | query => exact hquery s h
  | get =>
    refine Pres.bind (P := Booked) .get (fun s => ?_) s h
    split
    · exact .pure _
    · exact .throw _
  | setPolicy p => exact ⟨h.agree, h.nodup, h.fresh⟩
  | getPolicy => exact h
  | clearPolicy => exact ⟨h.agree, h.nodup, h.fresh⟩
  | check p o i =>
    refine Pres.ite (P := Booked) (.pure _) (.ite (.bind .get fun s => ?_) (hix i p o)) s h
    split
    · exact hix _ p o
    · exact .throw _
  | add i p =>
    have hb := booked_add i p s hv h
    simp only [exec, run_bind]
    revert hb
    rcases ixAdd i p s with ⟨r, s'⟩
    cases r <;> exact id
  | remove i p =>
    have hb := booked_remove i p s h
    simp only [exec, run_bind]
    revert hb
    rcases ixRemove i p s with ⟨r, s'⟩
    cases r <;> exact id

/-- **C27** At every moment of every interleaved history of management calls, `add` and `remove`,
a participation is in the list of an interaction iff its `interaction` attribute is that
interaction, no list repeats one, and so it is in at most one interaction (provided foreign
policies keep the books too). -/
theorem C27_bookkeeping (X : Ctx A) (hw : ∀ r s, Booked s → Booked (X.W.apply r s).2) (h : List (Nat × MCall))
    (s : St A) (hs : Booked s) (hv : ValidRun X h s) :
    Booked (interleave X h s).2
    ∧ ∀ i j p, p ∈ ((interleave X h s).2.ixs i).participations → p ∈ ((interleave X h s).2.ixs j).participations → i = j := by
  have hb : Booked (interleave X h s).2 := by
    induction h generalizing s with
    | nil => exact hs
    | cons e r ih =>
      obtain ⟨t, c⟩ := e
      exact ih _ (booked_exec { X with tid := t } hw c s hv.1 hs) hv.2
  refine ⟨hb, fun i j p hi hj => ?_⟩
  have h1 := (hb.agree i p).mp hi
  have h2 := (hb.agree j p).mp hj
  rw [h1] at h2
  cases h2
  rfl

/-- **C27** `add` raises ValueError iff the participation is taken, `remove` iff it is not in that
interaction; when they raise nothing happens. -/
theorem C27_add_remove (i p : Nat) (s : St A) (h : Booked s) :
    ((ixAdd i p s).1 = .err .valueError ↔ (s.parts p).interaction ≠ .none)
    ∧ ((ixAdd i p s).1 = .ok () ↔ (s.parts p).interaction = .none)
    ∧ ((ixRemove i p s).1 = .err .valueError ↔ p ∉ (s.ixs i).participations)
    ∧ ((ixRemove i p s).1 = .ok () ↔ p ∈ (s.ixs i).participations)
    ∧ ((ixAdd i p s).1 ≠ .ok () → (ixAdd i p s).2 = s) ∧ ((ixRemove i p s).1 ≠ .ok () → (ixRemove i p s).2 = s)
    ∧ ((ixAdd i p s).1 = .ok () → p ∈ ((ixAdd i p s).2.ixs i).participations)
    ∧ ((ixRemove i p s).1 = .ok () → ((ixRemove i p s).2.parts p).interaction = .none) := by
  have ha : ((s.parts p).interaction = .none ∧ (ixAdd i p s).1 = .ok () ∧ p ∈ ((ixAdd i p s).2.ixs i).participations)
      ∨ ((s.parts p).interaction ≠ .none ∧ ixAdd i p s = (.err .valueError, s)) := by
    by_cases hp : (s.parts p).interaction = .none
    · left; rw [(ixAdd_cases i p s).2 hp]; simp [hp]
    · right; exact ⟨hp, (ixAdd_cases i p s).1 hp⟩
  have hr : (p ∈ (s.ixs i).participations ∧ (ixRemove i p s).1 = .ok () ∧ ((ixRemove i p s).2.parts p).interaction = .none)
      ∨ (p ∉ (s.ixs i).participations ∧ ixRemove i p s = (.err .valueError, s)) := by
    by_cases hp : p ∈ (s.ixs i).participations
    · left; rw [(ixRemove_cases i p s).2 ((h.agree i p).mp hp) hp]; simp [hp]
    · right; exact ⟨hp, (ixRemove_cases i p s).1 (.inr hp)⟩
  rcases ha with ⟨a1, a2, a3⟩ | ⟨a1, a2⟩ <;> rcases hr with ⟨r1, r2, r3⟩ | ⟨r1, r2⟩ <;> simp [*]

/-- The initial state is booked, and a history using every operation is valid. -/
example : Booked Ex.s0 ∧ ValidRun (Ex.X .c) [(0, .new [1, 2]), (0, .remove 100 1), (1, .new [1]), (0, .add 100 3), (0, .end_)] Ex.s0
    ∧ ∀ r s, Booked s → Booked (Ex.W.apply r s).2 := by
  refine ⟨⟨?_, ?_, ?_⟩, ?_, ?_⟩
  · intro i p
    show p ∈ [] ↔ Val.none = .ix i
    simp
  · intro i; exact List.nodup_nil
  · intro i _; rfl
  · refine ⟨trivial, trivial, trivial, ?_, trivial, trivial⟩
    show 100 < _
    decide
  · intro r s h
    simp only [Ex.W]
    split <;> exact h

/-! ## C28 -/

/-- **C28** The built-in policies: paranoid grants iff the permission is public or all principals
are the system user; permissive grants everything. -/
theorem C28_decisions (X : Ctx A) (s : St A) (i : Nat) (perm obj : Val) :
    ((s.ixs i).permissive = true → ixCheckPermission X (.ix i) perm obj s = (.ok (.bool true), s))
    ∧ ((s.ixs i).permissive = false →
        ((ixCheckPermission X (.ix i) perm obj s = (.ok (.bool true), s)) ↔
          (perm = publicV ∨ ∀ p ∈ (s.ixs i).participations, (s.parts p).principal = .system))
        ∧ ((ixCheckPermission X (.ix i) perm obj s = (.ok (.bool false), s)) ↔
          (perm ≠ publicV ∧ ∃ p ∈ (s.ixs i).participations, (s.parts p).principal ≠ .system)))
    ∧ ((s.ixs i).participations = [] → ixCheckPermission X (.ix i) perm obj s = (.ok (.bool true), s)) := by
  have hkey := (C26_answer X s (.ix i) perm obj).1 i rfl
  refine ⟨fun h => hkey.1 (.inl h), fun h => ?_, fun h => hkey.1 (.inr (.inr (by intro p hp; rw [h] at hp; cases hp)))⟩
  by_cases hg : perm = publicV ∨ AllSystem s i
  · have := hkey.1 (.inr hg)
    rw [this]
    refine ⟨⟨fun _ => hg, fun _ => rfl⟩, ⟨fun h => by simp at h, ?_⟩⟩
    rintro ⟨h1, p, hp, h2⟩
    rcases hg with hg | hg
    · exact absurd hg h1
    · exact absurd (hg p hp) h2
  · have := hkey.2 (fun hb => hb.elim (fun h' => by rw [h] at h'; cases h') hg)
    rw [this]
    refine ⟨⟨fun h => by simp at h, fun h => absurd h hg⟩, ⟨fun _ => ?_, fun _ => rfl⟩⟩
    refine ⟨fun h => hg (.inl h), ?_⟩
    apply Classical.byContradiction
    intro hne
    exact hg (.inr (fun p hp => Classical.byContradiction fun h2 => hne ⟨p, hp, h2⟩))

/-- **C28** More participations, fewer grants: what is granted after an addition was granted
before, what is granted before a removal is granted after. -/
theorem C28_monotone (s : St A) (i j p : Nat) (perm : Val) :
    (BuiltinGrants (ixAdd j p s).2 i perm → BuiltinGrants s i perm)
    ∧ (BuiltinGrants s i perm → BuiltinGrants (ixRemove j p s).2 i perm) := by
  constructor
  · by_cases hp : (s.parts p).interaction = .none
    · rw [(ixAdd_cases j p s).2 hp]
      rintro (h | h | h)
      · left; simp only at h; split at h
        · next hj => subst hj; exact h
        · exact h
      · exact .inr (.inl h)
      · right; right
        intro q hq
        have := h q (by
          simp only; split
          · next hj => subst hj; simp [hq]
          · exact hq)
        simp only at this
        split at this
        · next hj => subst hj; exact this
        · exact this
    · rw [(ixAdd_cases j p s).1 hp]; exact id
  · by_cases hp : (s.parts p).interaction = .ix j ∧ p ∈ (s.ixs j).participations
    · rw [(ixRemove_cases j p s).2 hp.1 hp.2]
      rintro (h | h | h)
      · left; simp only; split
        · next hj => subst hj; exact h
        · exact h
      · exact .inr (.inl h)
      · right; right
        intro q hq
        simp only at hq
        have hq' : q ∈ (s.ixs i).participations := by
          split at hq
          · next hj => subst hj; exact List.mem_of_mem_erase hq
          · exact hq
        have := h q hq'
        simp only
        split
        · next hj => subst hj; exact this
        · exact this
    · rw [(ixRemove_cases j p s).1 (by
        by_cases h1 : (s.parts p).interaction = .ix j
        · exact .inr (fun h2 => hp ⟨h1, h2⟩)
        · exact .inl h1)]
      exact id

/-! ## C29 -/

/-- The participations that can be added one after the other. -/
def AllFree (s : St A) (ps : List Nat) : Prop := ps.Nodup ∧ ∀ p ∈ ps, (s.parts p).interaction = .none

/-- Adding in sequence: everything up to the first taken or repeated one. -/
theorem addAll_spec (i : Nat) (ps : List Nat) (s : St A) :
    (AllFree s ps → ∃ s', ixAddAll i ps s = (.ok (), s')
      ∧ (∀ q, s'.parts q = if q ∈ ps then { s.parts q with interaction := .ix i } else s.parts q)
      ∧ (∀ j, s'.ixs j = if j = i then { s.ixs i with participations := (s.ixs i).participations ++ ps } else s.ixs j)
      ∧ s'.threads = s.threads)
    ∧ (∀ pre p post, ps = pre ++ p :: post → AllFree s pre → (s.parts p).interaction ≠ .none ∨ p ∈ pre →
      ∃ s', ixAddAll i ps s = (.err .valueError, s')
      ∧ (∀ q, s'.parts q = if q ∈ pre then { s.parts q with interaction := .ix i } else s.parts q)
      ∧ (∀ j, s'.ixs j = if j = i then { s.ixs i with participations := (s.ixs i).participations ++ pre } else s.ixs j)
      ∧ s'.threads = s.threads) := by
  induction ps generalizing s with
  | nil =>
    refine ⟨fun _ => ⟨s, rfl, by simp, fun j => ?_, rfl⟩, fun pre p post h => ?_⟩
    · split
      · next hj => subst hj; simp
      · rfl
    · cases pre <;> cases h
  | cons p r ih =>
    by_cases hp : (s.parts p).interaction = .none
    · have he := (ixAdd_cases i p s).2 hp
      generalize hs1 : ({ s with
          parts := fun q => if q = p then { s.parts p with interaction := .ix i } else s.parts q
          ixs := fun j => if j = i then { s.ixs i with participations := (s.ixs i).participations ++ [p] } else s.ixs j } : St A) = s1 at he
      have hp1 : ∀ q, s1.parts q = if q = p then { s.parts p with interaction := .ix i } else s.parts q := by
        intro q; rw [← hs1]
      have hi1 : ∀ j, s1.ixs j = if j = i then { s.ixs i with participations := (s.ixs i).participations ++ [p] } else s.ixs j := by
        intro j; rw [← hs1]
      have ht1 : s1.threads = s.threads := by rw [← hs1]
      have hrun : ixAddAll i (p :: r) s = ixAddAll i r s1 := by
        simp only [ixAddAll, run_bind, he]
      obtain ⟨g1, g2⟩ := ih s1
      constructor
      · rintro ⟨hnd, hfree⟩
        simp only [List.nodup_cons] at hnd
        obtain ⟨s', e1, e2, e3, e4⟩ := g1 ⟨hnd.2, fun q hq => by
          rw [hp1 q, if_neg (by rintro rfl; exact hnd.1 hq)]; exact hfree q (by simp [hq])⟩
        refine ⟨s', by rw [hrun, e1], fun q => ?_, fun j => ?_, by rw [e4, ht1]⟩
        · rw [e2 q, hp1 q]
          by_cases hq : q = p
          · subst hq; simp
          · simp [hq]
        · rw [e3 j, hi1 j]
          by_cases hj : j = i
          · subst hj; simp [hi1]
          · simp [hj]
      · rintro pre q post hps ⟨hnd, hfree⟩ hbad
        cases pre with
        | nil =>
          simp only [List.nil_append, List.cons.injEq] at hps
          rw [← hps.1] at hbad
          simp [hp] at hbad
        | cons a pre =>
          simp only [List.cons_append, List.cons.injEq] at hps
          obtain ⟨rfl, hr⟩ := hps
          simp only [List.nodup_cons] at hnd
          obtain ⟨s', e1, e2, e3, e4⟩ := g2 pre q post hr ⟨hnd.2, fun q' hq' => by
            rw [hp1 q', if_neg (by rintro rfl; exact hnd.1 hq')]; exact hfree q' (by simp [hq'])⟩ (by
              rw [hp1 q]
              by_cases hqp : q = p
              · subst hqp; left; simp
              · rw [if_neg hqp]
                rcases hbad with hb | hb
                · exact .inl hb
                · simp only [List.mem_cons, hqp, false_or] at hb; exact .inr hb)
          refine ⟨s', by rw [hrun, e1], fun q' => ?_, fun j => ?_, by rw [e4, ht1]⟩
          · rw [e2 q', hp1 q']
            by_cases hq : q' = p
            · subst hq; simp
            · simp [hq]
          · rw [e3 j, hi1 j]
            by_cases hj : j = i
            · subst hj; simp [hi1]
            · simp [hj]
    · have he := (ixAdd_cases i p s).1 hp
      have hrun : ixAddAll i (p :: r) s = (.err .valueError, s) := by
        simp only [ixAddAll, run_bind, he]
      constructor
      · rintro ⟨_, hfree⟩; exact absurd (hfree p (by simp)) hp
      · rintro pre q post hps ⟨hnd, hfree⟩ hbad
        cases pre with
        | nil =>
          refine ⟨s, hrun, by simp, fun j => ?_, rfl⟩
          split
          · next hj => subst hj; simp
          · rfl
        | cons a pre =>
          simp only [List.cons_append, List.cons.injEq] at hps
          exact absurd (hfree a (by simp)) (by rw [← hps.1]; exact hp)

/-- Every list of participations either can be added in full or has a first one that cannot. -/
theorem free_or_first (s : St A) (ps : List Nat) : AllFree s ps ∨
    ∃ pre p post, ps = pre ++ p :: post ∧ AllFree s pre ∧ ((s.parts p).interaction ≠ .none ∨ p ∈ pre) := by
  suffices h : ∀ pre, AllFree s pre → AllFree s (pre ++ ps) ∨
      ∃ pre' p post, pre ++ ps = pre' ++ p :: post ∧ AllFree s pre' ∧ ((s.parts p).interaction ≠ .none ∨ p ∈ pre') by
    simpa using h [] ⟨by simp, by simp⟩
  induction ps with
  | nil => intro pre h; left; simpa using h
  | cons p r ih =>
    intro pre h
    by_cases hbad : (s.parts p).interaction ≠ .none ∨ p ∈ pre
    · exact .inr ⟨pre, p, r, rfl, h, hbad⟩
    · have hp1 : (s.parts p).interaction = .none := Classical.byContradiction fun h => hbad (.inl h)
      have hp2 : p ∉ pre := fun h => hbad (.inr h)
      have := ih (pre ++ [p]) ⟨by
        rw [List.nodup_append]
        refine ⟨h.1, by simp, ?_⟩
        intro a ha b hb
        simp only [List.mem_singleton] at hb
        subst hb; rintro rfl; exact hp2 ha, by
        intro q hq
        simp only [List.mem_append, List.mem_singleton] at hq
        rcases hq with hq | rfl
        · exact h.2 q hq
        · exact hp1⟩
      simpa using this

/-- **C29** A failing `newInteraction` leaves the thread's slots as they were, whatever the policy
(foreign policies must not themselves switch interactions). -/
theorem C29_thread_unchanged (X : Ctx A) (hq : Quiet X.W) (ps : List Nat) (s : St A)
    (hfail : (newInteraction X ps s).1 ≠ .ok ()) : (newInteraction X ps s).2.threads = s.threads := by
  unfold newInteraction queryInteraction getSecurityPolicy at hfail ⊢
  simp only [run_bind, run_get, run_pure] at hfail ⊢
  by_cases hb : ((s.threads X.tid).interaction.getD .none) = .none
  · simp only [hb, ne_eq, not_true_eq_false, if_false, run_bind, run_get, run_pure] at hfail ⊢
    have hp := callPolicy_threads hq s.threads s.policy ps s rfl
    revert hp hfail
    rcases callPolicy X s.policy ps s with ⟨r, s1⟩
    cases r with
    | ok ix => intro hfail; simp [setSlots] at hfail
    | err e => exact fun _ h => h
    | diverge => exact fun _ h => h
  · simp only [ne_eq, hb, not_false_eq_true, if_true, run_throw]

/-- **C29** Exactly what happens under a built-in policy when no interaction is active.  Success:
all participations are bound to the new interaction, which the thread now uses.  Failure, iff a
participation is taken or repeated: ValueError; those before it are bound to an interaction nobody
uses, the thread has none. -/
theorem C29_exact (X : Ctx A) (ps : List Nat) (s : St A) (b : Bool)
    (hpol : s.policy = if b then .permissive else .paranoid) (hidle : (s.threads X.tid).interaction = none) :
    (AllFree s ps → (newInteraction X ps s).1 = .ok ()
      ∧ ((newInteraction X ps s).2.threads X.tid).interaction = some (.ix s.nextId)
      ∧ (newInteraction X ps s).2.ixs s.nextId = ⟨b, ps⟩
      ∧ ∀ q, ((newInteraction X ps s).2.parts q) = if q ∈ ps then { s.parts q with interaction := .ix s.nextId } else s.parts q)
    ∧ (∀ pre p post, ps = pre ++ p :: post → AllFree s pre → (s.parts p).interaction ≠ .none ∨ p ∈ pre →
      (newInteraction X ps s).1 = .err .valueError
      ∧ (newInteraction X ps s).2.threads = s.threads
      ∧ (newInteraction X ps s).2.ixs s.nextId = ⟨b, pre⟩
      ∧ ∀ q, ((newInteraction X ps s).2.parts q) = if q ∈ pre then { s.parts q with interaction := .ix s.nextId } else s.parts q) := by
  have hcp : callPolicy X s.policy ps = newIx b ps := by rw [hpol]; cases b <;> rfl
  have hrun : newInteraction X ps s = (newIx b ps >>= fun ix => setSlots X.tid fun sl => { sl with interaction := some ix }) s := by
    unfold newInteraction queryInteraction getSecurityPolicy
    simp only [run_bind, run_get, run_pure, hidle, Option.getD_none, ne_eq, not_true_eq_false, if_false, hcp]
  obtain ⟨g1, g2⟩ := addAll_spec s.nextId ps
    { s with nextId := s.nextId + 1, ixs := fun j => if j = s.nextId then ⟨b, []⟩ else s.ixs j }
  constructor
  · intro hf
    obtain ⟨s', e1, e2, e3, e4⟩ := g1 hf
    rw [hrun]
    simp only [newIx, run_bind, run_get, run_modify, run_pure, e1, setSlots, if_true]
    refine ⟨trivial, trivial, ?_, e2⟩
    rw [e3]; simp
  · intro pre p post h1 h2 h3
    obtain ⟨s', e1, e2, e3, e4⟩ := g2 pre p post h1 h2 h3
    rw [hrun]
    simp only [newIx, run_bind, run_get, run_modify, e1]
    refine ⟨trivial, e4, ?_, e2⟩
    rw [e3]; simp

/-- A repeated participation: the first occurrence ends up bound to the orphan interaction. -/
example : (newInteraction (Ex.X .c) [1, 2, 1] Ex.s0).1 = .err .valueError
    ∧ ((newInteraction (Ex.X .c) [1, 2, 1] Ex.s0).2.parts 1).interaction = .ix 100
    ∧ ((newInteraction (Ex.X .c) [1, 2, 1] Ex.s0).2.threads 0).interaction = none := by
  refine ⟨by decide, by decide, by decide⟩

/-! ## C52 -/

/-- **C52** `setSecurityPolicy` returns the policy in force before, and setting back what it
returned restores everything. -/
theorem C52_set_returns (p q : Policy) (s : St A) :
    setSecurityPolicy p s = (.ok s.policy, { s with policy := p })
    ∧ (setSecurityPolicy s.policy (setSecurityPolicy q s).2).2 = s := ⟨rfl, rfl⟩

/-- **C52** Decisions of existing interactions do not depend on the policy in force. -/
theorem C52_existing_unaffected (X : Ctx A) (p : Policy) (s : St A) (i : Nat) (perm obj : Val) :
    (ixCheckPermission X (.ix i) perm obj (setSecurityPolicy p s).2).1 = (ixCheckPermission X (.ix i) perm obj s).1 := by
  show (ixCheckPermission X (.ix i) perm obj { s with policy := p }).1 = _
  have : paranoidCheck { s with policy := p } i perm = paranoidCheck s i perm := rfl
  simp only [ixCheckPermission, run_bind, run_get, run_ite, this]
  split <;> rfl

/-- The kind of a built-in interaction. -/
def kindKept (s0 : St A) (s : St A) : Prop :=
  s0.nextId ≤ s.nextId ∧ ∀ i, i < s0.nextId → (s.ixs i).permissive = (s0.ixs i).permissive

theorem kind_exec (X : Ctx A) (s0 : St A) (hw : ∀ r s, kindKept s0 s → kindKept s0 (X.W.apply r s).2) (c : MCall) :
    Pres (kindKept s0) (exec X c) := by
  have hk : Keeps (kindKept s0) X.W :=
    { apply := hw, trace := fun s l h => h, nextId := fun s h => ⟨by have := h.1; simp only; omega, h.2⟩ }
  have hslots : ∀ t f, Pres (kindKept s0) (setSlots t f) := fun t f s h => h
  have hix : ∀ ix p o, Pres (kindKept s0) (ixCheckPermission X ix p o) := fun ix p o => by
    unfold ixCheckPermission
    split
    · exact .bind .get fun s => .ite (.pure _) (.pure _)
    · exact .probe hk _
  have hmod : ∀ (i : Nat) (f : List Nat → List Nat), Pres (kindKept s0) (M.modify fun s => { s with
        ixs := fun j => if j = i then { s.ixs i with participations := f (s.ixs i).participations } else s.ixs j }) := by
    intro i f s h
    refine ⟨h.1, fun j hj => ?_⟩
    simp only [run_modify]
    split
    · next he => subst he; exact h.2 j hj
    · exact h.2 j hj
  have hadd : ∀ i p, Pres (kindKept s0) (ixAdd i p) := fun i p => by
    unfold ixAdd
    exact .bind .get fun s => .ite (.throw _) (.bind (.modify fun _ h => h) fun _ => hmod i (· ++ [p]))
  have hrem : ∀ i p, Pres (kindKept s0) (ixRemove i p) := fun i p => by
    unfold ixRemove
    exact .bind .get fun s => .ite (.throw _) (.ite (.throw _)
      (.bind (hmod i (·.erase p)) fun _ => .modify fun _ h => h))
  have haddAll : ∀ i ps, Pres (kindKept s0) (ixAddAll i ps) := fun i ps => by
    induction ps with
    | nil => exact .pure _
    | cons p r ih => exact .bind (hadd i p) fun _ => ih
  have hnew : ∀ b ps, Pres (kindKept s0) (newIx b ps) := by
    intro b ps s h
    have h0 : kindKept s0 { s with nextId := s.nextId + 1, ixs := fun j => if j = s.nextId then ⟨b, []⟩ else s.ixs j } := by
      refine ⟨by have := h.1; simp only; omega, fun i hi => ?_⟩
      simp only
      rw [if_neg (by have := h.1; omega)]
      exact h.2 i hi
    exact Pres.bind (haddAll s.nextId ps) (fun _ => Pres.pure _) _ h0
  have hquery : Pres (kindKept s0) (queryInteraction X) := .bind .get fun _ => .pure _
  cases c with
  | new ps =>
    refine .bind (.bind hquery fun q => .ite (.throw _) (.bind (.bind .get fun _ => .pure _) fun p =>
      .bind ?_ fun ix => hslots _ _)) fun _ => hquery
    cases p with
    | paranoid => exact hnew _ ps
    | permissive => exact hnew _ ps
    | custom f => exact .probe hk _
  | end_ =>
    refine .bind (.bind .get fun s => ?_) fun _ => .pure _
    split
    · exact .bind (hslots _ _) fun _ => hslots _ _
    · exact hslots _ _
  | restore =>
    refine .bind (.bind .get fun s => ?_) fun _ => .pure _
    split
    · exact hslots _ _
    · exact hslots _ _
  | query => exact hquery
  | get =>
    refine .bind .get fun s => ?_
    split
    · exact .pure _
    · exact .throw _
  | setPolicy p => exact .bind (.bind .get fun _ => .bind (.modify fun _ h => h) fun _ => .pure _) fun _ => .pure _
  | getPolicy => exact .bind (.bind .get fun _ => .pure _) fun _ => .pure _
  | clearPolicy => exact .bind (.modify fun _ h => h) fun _ => .pure _
  | check p o i =>
    refine .ite (.pure _) (.ite (.bind .get fun s => ?_) (hix i p o))
    split
    · exact hix _ p o
    · exact .throw _
  | add i p => exact .bind (hadd i p) fun _ => .pure _
  | remove i p => exact .bind (hrem i p) fun _ => .pure _

/-- **C52** In every interleaved history an existing interaction stays of the kind it was created
as, however often the policy is changed. -/
theorem C52_kind_fixed (X : Ctx A) (h : List (Nat × MCall)) (s : St A)
    (hw : ∀ r s', kindKept s s' → kindKept s (X.W.apply r s').2) (i : Nat) (hi : i < s.nextId) :
    ((interleave X h s).2.ixs i).permissive = (s.ixs i).permissive := by
  suffices hg : ∀ (h : List (Nat × MCall)) s', kindKept s s' → kindKept s (interleave X h s').2 by
    exact (hg h s ⟨Nat.le_refl _, fun _ _ => rfl⟩).2 i hi
  intro h
  induction h with
  | nil => intro s' hs; exact hs
  | cons e r ih =>
    intro s' hs
    obtain ⟨t, c⟩ := e
    exact ih _ (kind_exec { X with tid := t } s hw c s' hs)

/-- The interaction `i` has the participations it had, whose principals are what they were. -/
def companyKept (i : Nat) (s0 : St A) (s : St A) : Prop :=
  s0.nextId ≤ s.nextId ∧ s.ixs i = s0.ixs i ∧ ∀ p, (s.parts p).principal = (s0.parts p).principal

theorem company_exec (X : Ctx A) (i : Nat) (s0 : St A) (hi : i < s0.nextId)
    (hw : ∀ r s, companyKept i s0 s → companyKept i s0 (X.W.apply r s).2) (c : MCall)
    (hc : ∀ p, c ≠ .add i p ∧ c ≠ .remove i p) : Pres (companyKept i s0) (exec X c) := by
  have hk : Keeps (companyKept i s0) X.W :=
    { apply := hw, trace := fun s l h => h, nextId := fun s h => ⟨by have := h.1; simp only; omega, h.2⟩ }
  have hslots : ∀ t f, Pres (companyKept i s0) (setSlots t f) := fun t f s h => h
  have hix : ∀ ix p o, Pres (companyKept i s0) (ixCheckPermission X ix p o) := fun ix p o => by
    unfold ixCheckPermission
    split
    · exact .bind .get fun s => .ite (.pure _) (.pure _)
    · exact .probe hk _
  have hmod : ∀ (j : Nat), j ≠ i → ∀ (f : List Nat → List Nat), Pres (companyKept i s0) (M.modify fun s => { s with
        ixs := fun k => if k = j then { s.ixs j with participations := f (s.ixs j).participations } else s.ixs k }) := by
    intro j hj f s h
    refine ⟨h.1, ?_, h.2.2⟩
    simp only [run_modify]
    rw [if_neg (Ne.symm hj)]
    exact h.2.1
  have hpart : ∀ (p : Nat) (v : Val), Pres (companyKept i s0) (M.modify fun s => { s with
        parts := fun q => if q = p then { s.parts p with interaction := v } else s.parts q }) := by
    intro p v s h
    refine ⟨h.1, h.2.1, fun q => ?_⟩
    simp only [run_modify]
    split
    · next he => subst he; exact h.2.2 q
    · exact h.2.2 q
  have hadd : ∀ j, j ≠ i → ∀ p, Pres (companyKept i s0) (ixAdd j p) := fun j hj p => by
    unfold ixAdd
    exact .bind .get fun s => .ite (.throw _) (.bind (hpart p _) fun _ => hmod j hj (· ++ [p]))
  have hrem : ∀ j, j ≠ i → ∀ p, Pres (companyKept i s0) (ixRemove j p) := fun j hj p => by
    unfold ixRemove
    exact .bind .get fun s => .ite (.throw _) (.ite (.throw _)
      (.bind (hmod j hj (·.erase p)) fun _ => hpart p _))
  have haddAll : ∀ j, j ≠ i → ∀ ps, Pres (companyKept i s0) (ixAddAll j ps) := fun j hj ps => by
    induction ps with
    | nil => exact .pure _
    | cons p r ih => exact .bind (hadd j hj p) fun _ => ih
  have hnew : ∀ b ps, Pres (companyKept i s0) (newIx b ps) := by
    intro b ps s h
    have hj : s.nextId ≠ i := by have := h.1; omega
    have h0 : companyKept i s0 { s with nextId := s.nextId + 1, ixs := fun j => if j = s.nextId then ⟨b, []⟩ else s.ixs j } := by
      refine ⟨by have := h.1; simp only; omega, ?_, h.2.2⟩
      simp only
      rw [if_neg (Ne.symm hj)]
      exact h.2.1
    exact Pres.bind (haddAll s.nextId hj ps) (fun _ => Pres.pure _) _ h0
  have hquery : Pres (companyKept i s0) (queryInteraction X) := .bind .get fun _ => .pure _
  cases c with
  | new ps =>
    refine .bind (.bind hquery fun q => .ite (.throw _) (.bind (.bind .get fun _ => .pure _) fun p =>
      .bind ?_ fun ix => hslots _ _)) fun _ => hquery
    cases p with
    | paranoid => exact hnew _ ps
    | permissive => exact hnew _ ps
    | custom f => exact .probe hk _
  | end_ =>
    refine .bind (.bind .get fun s => ?_) fun _ => .pure _
    split
    · exact .bind (hslots _ _) fun _ => hslots _ _
    · exact hslots _ _
  | restore =>
    refine .bind (.bind .get fun s => ?_) fun _ => .pure _
    split
    · exact hslots _ _
    · exact hslots _ _
  | query => exact hquery
  | get =>
    refine .bind .get fun s => ?_
    split
    · exact .pure _
    · exact .throw _
  | setPolicy p => exact .bind (.bind .get fun _ => .bind (.modify fun _ h => h) fun _ => .pure _) fun _ => .pure _
  | getPolicy => exact .bind (.bind .get fun _ => .pure _) fun _ => .pure _
  | clearPolicy => exact .bind (.modify fun _ h => h) fun _ => .pure _
  | check p o i =>
    refine .ite (.pure _) (.ite (.bind .get fun s => ?_) (hix i p o))
    split
    · exact hix _ p o
    · exact .throw _
  | add j p => exact .bind (hadd j (fun he => (hc p).1 (by rw [he])) p) fun _ => .pure _
  | remove j p => exact .bind (hrem j (fun he => (hc p).2 (by rw [he])) p) fun _ => .pure _

/-- **C52** Along every interleaved history of calls of all threads, with any changes of the policy, interactions begun,
ended and restored, and participations added to or removed from other interactions, an existing interaction to which
none is added and from which none is removed decides everything as before.  (Foreign policies must not alter it either.) -/
theorem C52_decisions_kept (X : Ctx A) (h : List (Nat × MCall)) (s : St A) (i : Nat) (hi : i < s.nextId)
    (hw : ∀ r s', companyKept i s s' → companyKept i s (X.W.apply r s').2)
    (hh : ∀ e ∈ h, ∀ p, e.2 ≠ .add i p ∧ e.2 ≠ .remove i p) (perm obj : Val) :
    (ixCheckPermission X (.ix i) perm obj (interleave X h s).2).1 = (ixCheckPermission X (.ix i) perm obj s).1 := by
  have hg : ∀ (h : List (Nat × MCall)), (∀ e ∈ h, ∀ p, e.2 ≠ .add i p ∧ e.2 ≠ .remove i p) →
      ∀ s', companyKept i s s' → companyKept i s (interleave X h s').2 := by
    intro h
    induction h with
    | nil => intro _ s' hs; exact hs
    | cons e r ih =>
      intro hh s' hs
      obtain ⟨t, c⟩ := e
      exact ih (fun e he => hh e (.tail _ he)) _
        (company_exec { X with tid := t } i s hi hw c (hh _ (.head _)) s' hs)
  obtain ⟨_, h2, h3⟩ := hg h hh s ⟨Nat.le_refl _, rfl, fun _ => rfl⟩
  have hp : paranoidCheck (interleave X h s).2 i perm = paranoidCheck s i perm := by
    simp only [paranoidCheck, h2, h3]
  simp only [ixCheckPermission, run_bind, run_get, run_ite, hp, h2]
  split <;> rfl

/-- A permissive interaction stays permissive after the policy went back to paranoid, and a new
one is paranoid. -/
example : let s := (interleave (Ex.X .c) [(0, .setPolicy .permissive), (0, .new [1]), (1, .clearPolicy), (1, .new [2])] Ex.s0).2
    (s.ixs 100).permissive = true ∧ (s.ixs 101).permissive = false := by decide

/-- Of two interactions with ordinary users the permissive one keeps granting, the paranoid one keeps refusing, while
other threads change the policy back and forth. -/
example :
    let s := (interleave (Ex.X .c) [(0, .setPolicy .permissive), (0, .new [1]), (1, .clearPolicy), (1, .new [2])] Ex.s0).2
    let t := (interleave (Ex.X .c) [(2, .setPolicy .permissive), (2, .new [3]), (0, .end_), (2, .clearPolicy), (2, .remove 102 3)] s).2
    (ixCheckPermission (Ex.X .c) (.ix 100) Ex.view (.obj 1) s).1 = .ok (.bool true)
    ∧ (ixCheckPermission (Ex.X .c) (.ix 101) Ex.view (.obj 1) s).1 = .ok (.bool false)
    ∧ (ixCheckPermission (Ex.X .c) (.ix 100) Ex.view (.obj 1) t).1 = .ok (.bool true)
    ∧ (ixCheckPermission (Ex.X .c) (.ix 101) Ex.view (.obj 1) t).1 = .ok (.bool false) := by decide

end ZS.Props
