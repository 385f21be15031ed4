import Verif.Model.Testing
import Verif.Props.Management

/-!
# C45 Interactions for tests
-/

namespace ZS.Props
open Spec
variable {A : Type}

/-- **C45** With an interaction active, the body runs as if the context manager were not there. -/
theorem C45_active (X : Ctx A) (id : String) (body : Option Principal → M A Val) (s : St A) (v : Val)
    (h : (s.threads X.tid).interaction = some v) (ht : truthy X.W v = true) :
    interactionCtx X id body s = body none s := by
  unfold interactionCtx queryInteraction
  simp only [run_bind, run_get, run_pure, h, Option.getD_some]
  rw [if_pos ht]

/-- The body of `with interaction(id)` has been entered from `s` in `t`: the thread's interaction is
a new one with one participation, new too, of a principal that is not the system user. -/
structure Entered (X : Ctx A) (id : String) (permissive : Bool) (s t : St A) (i p : Nat) : Prop where
  current : t.threads X.tid = ⟨some (.ix i), (s.threads X.tid).previous⟩
  others : ∀ u, u ≠ X.tid → t.threads u = s.threads u
  only : t.ixs i = ⟨permissive, [p]⟩
  who : t.parts p = ⟨.user id, .ix i⟩
  newIx : s.nextId ≤ i
  newPart : s.nextId ≤ p
  oldIxs : ∀ j, j < s.nextId → t.ixs j = s.ixs j
  oldParts : ∀ q, q < s.nextId → t.parts q = s.parts q
  rest : t = { s with threads := t.threads, ixs := t.ixs, parts := t.parts, nextId := t.nextId }

theorem finally_end (X : Ctx A) (x : M A Val) (t t' : St A) (r : Res Val) (h : x t = (r, t')) :
    (r = .diverge ∧ tryFinally x (endInteraction X) t = (.diverge, t'))
    ∨ (r ≠ .diverge ∧ (tryFinally x (endInteraction X) t).1 = r
      ∧ Step (slots t' X.tid) .end_ (.ok .none) (slots (tryFinally x (endInteraction X) t).2 X.tid)
      ∧ (∀ u, u ≠ X.tid → (tryFinally x (endInteraction X) t).2.threads u = t'.threads u)
      ∧ (tryFinally x (endInteraction X) t).2 = { t' with threads := (tryFinally x (endInteraction X) t).2.threads }) := by
  have hend : ∃ t2, endInteraction X t' = (.ok (), t2) ∧ Step (slots t' X.tid) .end_ (.ok .none) (slots t2 X.tid)
      ∧ (∀ u, u ≠ X.tid → t2.threads u = t'.threads u) ∧ t2 = { t' with threads := t2.threads } := by
    simp only [endInteraction, run_bind, run_get, slots]
    cases hi : (t'.threads X.tid).interaction with
    | some v =>
      simp only [setSlots, run_bind, run_modify, hi]
      exact ⟨_, rfl, by simp only [if_true]; exact .end_, fun u hu => by simp [hu], rfl⟩
    | none =>
      simp only [setSlots, run_modify, hi]
      exact ⟨_, rfl, by simp only [if_true, hi]; exact .endNone, fun u hu => by simp [hu], rfl⟩
  obtain ⟨t2, e1, e2, e3, e4⟩ := hend
  unfold tryFinally
  rw [h]
  cases r with
  | diverge => exact .inl ⟨rfl, rfl⟩
  | ok v =>
    right
    simp only [run_bind, e1, run_pure]
    exact ⟨by simp, trivial, e2, e3, e4⟩
  | err e =>
    right
    simp only [run_bind, e1, run_throw]
    exact ⟨by simp, trivial, e2, e3, e4⟩

/-- **C45** With none active, under a built-in policy, the body runs in an interaction of exactly that
principal and is given the principal; when it returns or raises, what it returned or raised is passed
on and the thread has no interaction any more (whatever the body did to it), the rest of the state
being as the body left it. -/
theorem C45_installs (X : Ctx A) (id : String) (body : Option Principal → M A Val) (s : St A) (b : Bool)
    (hpol : s.policy = if b then .permissive else .paranoid) (hidle : Idle (s.threads X.tid).interaction) :
    ∃ t i p, Entered X id b s t i p ∧ ∀ r t', body (some (.user id)) t = (r, t') →
      (r = .diverge ∧ interactionCtx X id body s = (.diverge, t'))
      ∨ (r ≠ .diverge ∧ (interactionCtx X id body s).1 = r
        ∧ ((interactionCtx X id body s).2.threads X.tid) = ⟨none, (t'.threads X.tid).interaction⟩
        ∧ (∀ u, u ≠ X.tid → (interactionCtx X id body s).2.threads u = t'.threads u)
        ∧ (interactionCtx X id body s).2 = { t' with threads := (interactionCtx X id body s).2.threads }) := by
  have hq : queryInteraction X s = (.ok .none, s) := by
    unfold queryInteraction
    simp only [run_bind, run_get, run_pure]
    rcases hidle with h | h <;> rw [h] <;> rfl
  have hc : ∃ t i p, createInteraction X id s = (.ok (.user id), t) ∧ Entered X id b s t i p := by
    have hcp : ∀ ps, callPolicy X s.policy ps = newIx b ps := by intro ps; rw [hpol]; cases b <;> rfl
    have hg : (s.threads X.tid).interaction.getD .none = .none := by rcases hidle with h | h <;> rw [h] <;> rfl
    refine ⟨{ s with
      nextId := s.nextId + 1 + 1
      parts := fun q => if q = s.nextId then ⟨.user id, .ix (s.nextId + 1)⟩ else s.parts q
      ixs := fun j => if j = s.nextId + 1 then ⟨b, [s.nextId]⟩ else s.ixs j
      threads := fun u => if u = X.tid then ⟨some (.ix (s.nextId + 1)), (s.threads X.tid).previous⟩ else s.threads u },
      s.nextId + 1, s.nextId, ?_, ?_⟩
    · unfold createInteraction newParticipation newInteraction queryInteraction getSecurityPolicy
      simp only [run_bind, run_get, run_pure, run_modify, hg, ne_eq, not_true_eq_false, if_false, hcp]
      simp only [newIx, ixAddAll, ixAdd, run_bind, run_get, run_modify, run_pure, if_true, ne_eq, not_true_eq_false,
        if_false, setSlots]
      refine Prod.ext rfl ?_
      simp only [List.nil_append]
      congr 1
      · funext j; split <;> simp_all
      · funext q; split <;> simp_all
    · constructor
      · simp
      · intro u hu; simp [hu]
      · simp
      · simp
      · simp
      · simp
      · intro j hj
        have : j ≠ s.nextId + 1 := by omega
        simp [this]
      · intro q hq'
        have : q ≠ s.nextId := by omega
        simp [this]
      · rfl
  obtain ⟨t, i, p, h1, h2⟩ := hc
  have hrun : interactionCtx X id body s = tryFinally (body (some (.user id))) (endInteraction X) t := by
    unfold interactionCtx
    rw [bind_ok hq, if_neg (by simp [truthy]), bind_ok h1]
  refine ⟨t, i, p, h2, fun r t' hb => ?_⟩
  rw [hrun]
  rcases finally_end X _ t t' r hb with h | ⟨g1, g2, g3, g4, g5⟩
  · exact .inl h
  · refine .inr ⟨g1, g2, ?_, g4, g5⟩
    generalize (tryFinally (body (some (.user id))) (endInteraction X) t).2 = t2 at g3
    simp only [slots] at g3
    rcases hl : t2.threads X.tid with ⟨a, b⟩
    rw [hl] at g3
    generalize t'.threads X.tid = sl at g3 ⊢
    rcases sl with ⟨c, d⟩
    generalize hx : ((c, d) : Option Val × Option Val) = x at g3
    generalize hy : ((a, b) : Option Val × Option Val) = y at g3
    cases g3 <;> cases hx <;> cases hy <;> rfl

/-- **C45** The outcome depends on truth, not on identity with `None`: with an active interaction that is
false in a boolean context the body is not run, `ExistingInteraction` is raised instead and the
active interaction stays. -/
theorem C45_falsy_refused (X : Ctx A) (id : String) (body : Option Principal → M A Val) (s : St A) (v : Val)
    (h : (s.threads X.tid).interaction = some v) (hn : v ≠ .none) (ht : truthy X.W v = false) :
    ∃ t, interactionCtx X id body s = (.err .existingInteraction, t) ∧ t.threads = s.threads
      ∧ t = { s with nextId := t.nextId, parts := t.parts } := by
  unfold interactionCtx createInteraction newParticipation newInteraction queryInteraction
  simp only [run_bind, run_get, run_pure, run_modify, h, Option.getD_some]
  rw [if_neg (by simp [ht])]
  simp only [run_bind, run_get, run_pure, run_modify, h, Option.getD_some]
  rw [if_pos hn]
  exact ⟨_, rfl, rfl, rfl⟩

/-- **C45** If the policy in force refuses to make an interaction, the body is not run. -/
theorem C45_policy_refuses (X : Ctx A) (id : String) (body : Option Principal → M A Val) (s : St A) (f : Val)
    (hpol : s.policy = .custom f) (hidle : Idle (s.threads X.tid).interaction) (e : Exn) (t : St A)
    (hf : probe X (.call f [.obj s.nextId]) { s with
      nextId := s.nextId + 1
      parts := fun q => if q = s.nextId then ⟨.user id, .none⟩ else s.parts q } = (.err e, t)) :
    interactionCtx X id body s = (.err e, t) := by
  have hg : (s.threads X.tid).interaction.getD .none = .none := by rcases hidle with h | h <;> rw [h] <;> rfl
  unfold interactionCtx createInteraction newParticipation newInteraction queryInteraction getSecurityPolicy
  simp only [run_bind, run_get, run_pure, run_modify, hg]
  rw [if_neg (by simp [truthy])]
  simp only [hpol] at hf
  simp only [run_bind, run_get, run_pure, run_modify, hg, ne_eq, not_true_eq_false, if_false, hpol, callPolicy,
    List.map, hf]

/-- Under the paranoid policy the body may do nothing that is not public, and afterwards the thread has
no interaction. -/
example : (interactionCtx (Ex.X .c) "bob" (fun _ => checkPermission (Ex.X .c) Ex.view (.obj 1) .none) Ex.s0).1 = .ok (.bool false)
    ∧ ((interactionCtx (Ex.X .c) "bob" (fun _ => checkPermission (Ex.X .c) Ex.view (.obj 1) .none) Ex.s0).2.threads 0).interaction = none := by
  exact ⟨rfl, rfl⟩

/-- A raising body, and a nested use, which leaves the outer interaction alone. -/
example : (interactionCtx (Ex.X .c) "bob" (fun _ => interactionCtx (Ex.X .c) "eve" fun _ => M.throw (.other 7)) Ex.s0).1 = .err (.other 7) := by
  rfl

end ZS.Props
