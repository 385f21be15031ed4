import Verif.Model.Access
import Verif.Spec.Access
import Verif.Props.Mediation
import Verif.Props.Select

/-!
# C21, C22 `canAccess` and `canWrite`
-/

namespace ZS.Props
open Spec
variable {A : Type}

theorem isUnauth_iff (e : Exn) : e.isUnauthorized = true ↔ IsUnauth e := by
  cases e <;> simp [Exn.isUnauthorized, IsUnauth]

theorem isForbid_iff (e : Exn) : e.isForbidden = true ↔ IsForbid e := by
  cases e <;> simp [Exn.isForbidden, IsForbid]

theorem not_unauth {e : Exn} (h : ¬ IsUnauth e) : e.isUnauthorized = false := by
  rw [← isUnauth_iff] at h; simpa using h

theorem not_forbid {e : Exn} (h : ¬ IsForbid e) : e.isForbidden = false := by
  rw [← isForbid_iff] at h; simpa using h

theorem canAccess_run (X : Ctx A) (o p : Val) (n : Name) (s s0 : St A) (c : Val)
    (hf : proxyFactory X o .none s = (.ok p, s0)) (hc : getChecker X p s0 = (.ok c, s0)) :
    canAccess X o n s = M.tryCatch (do
      chkCheck X (hasattrX X) .getattr c p n
      pure true) Exn.isUnauthorized (fun _ => pure false) s0 := by
  unfold canAccess
  rw [bind_ok hf, bind_ok hc]

theorem getChecker_current (X : Ctx A) (p w c : Val) (s : St A) (h : current X.impl s p = some (w, c)) :
    getChecker X p s = (.ok c, s) := by
  cases p with
  | proxy id w0 c0 =>
    cases hX : X.impl <;> simp [current, hX] at h <;> simp [getChecker, proxyChecker, hX, run_bind, run_get, run_pure, h.2]
  | _ => simp [current] at h

/-- **C21** `canAccess(o, n)`: the object is proxied; then the answer is read off the read check of the
proxy's checker as tabulated.  An object that gets no proxy makes it raise TypeError, and failures of
proxying propagate. -/
theorem C21_canAccess (X : Ctx A) (o : Val) (n : Name) (s : St A) :
    (∀ p s0 w c, proxyFactory X o .none s = (.ok p, s0) → current X.impl s0 p = some (w, c) → ∀ r,
      (canAccess X o n s = r ↔ AccessSpec (chkCheck X (hasattrX X) .getattr c p n) s0 r))
    ∧ (∀ p s0, proxyFactory X o .none s = (.ok p, s0) → ¬ IsProxy p → canAccess X o n s = (.err .typeError, s0))
    ∧ (∀ e s0, proxyFactory X o .none s = (.err e, s0) → canAccess X o n s = (.err e, s0)) := by
  refine ⟨fun p s0 w c hf hc r => ?_, fun p s0 hf hp => ?_, fun e s0 hf => ?_⟩
  · rw [canAccess_run X o p n s s0 c hf (getChecker_current X p w c s0 hc), run_tryCatch, run_bind]
    rcases hk : chkCheck X (hasattrX X) .getattr c p n s0 with ⟨x, s1⟩
    constructor
    · rintro rfl
      cases x with
      | ok u => exact .yes hk
      | err e =>
        by_cases he : IsUnauth e
        · simp only [(isUnauth_iff e).mpr he, if_true]; exact .no hk he
        · simp only [not_unauth he, if_false, Bool.false_eq_true]; exact .raises hk he
      | diverge => exact .hangs hk
    · intro h
      cases h with
      | yes h => rw [hk] at h; cases h; rfl
      | no h he => rw [hk] at h; cases h; simp only [(isUnauth_iff _).mpr he, if_true]; rfl
      | raises h he => rw [hk] at h; cases h; simp only [not_unauth he, if_false, Bool.false_eq_true]
      | hangs h => rw [hk] at h; cases h; rfl
  · unfold canAccess
    rw [bind_ok hf]
    cases p with
    | proxy i w c => exact absurd ⟨_, _, _, rfl⟩ hp
    | _ => rfl
  · unfold canAccess
    rw [run_bind, hf]

theorem canWriteWith_err {X : Ctx A} {c p : Val} {n : Name} {s s1 : St A} {e : Exn}
    (h : chkCheck X (hasattrX X) .setattr c p n s = (.err e, s1)) :
    canWriteWith X c p n s = if e.isUnauthorized then (.ok false, s1)
      else if e.isForbidden then
        (do
          M.tryCatch (chkCheck X (hasattrX X) .getattr c p n) Exn.isUnauthorized (fun _ => pure ())
          pure false : M A Bool) s1
      else (.err e, s1) := by
  unfold canWriteWith
  rw [h]

theorem canWriteWith_read (X : Ctx A) (c p : Val) (n : Name) (s1 s2 : St A) (x : Res Unit)
    (h : chkCheck X (hasattrX X) .getattr c p n s1 = (x, s2)) :
    (do
      M.tryCatch (chkCheck X (hasattrX X) .getattr c p n) Exn.isUnauthorized (fun _ => pure ())
      pure false : M A Bool) s1 = match x with
        | .ok _ => (.ok false, s2)
        | .err e => if e.isUnauthorized then (.ok false, s2) else (.err e, s2)
        | .diverge => (.diverge, s2) := by
  cases x with
  | ok _ => simp only; rw [run_bind, run_tryCatch, h]; rfl
  | err e =>
    simp only
    rw [run_bind, run_tryCatch, h]
    cases he : e.isUnauthorized <;> simp only [he, if_true, if_false, Bool.false_eq_true] <;> rfl
  | diverge => simp only; rw [run_bind, run_tryCatch, h]

theorem canWriteWith_spec (X : Ctx A) (c p : Val) (n : Name) (s : St A) (r : Res Bool × St A) :
    canWriteWith X c p n s = r ↔
      CanWriteSpec (chkCheck X (hasattrX X) .setattr c p n) (chkCheck X (hasattrX X) .getattr c p n) s r := by
  have nf : ∀ e, IsForbid e → ¬ IsUnauth e := by rintro _ ⟨_, _, rfl⟩ ⟨_, _, _, h⟩; cases h
  have fwd : ∀ r, canWriteWith X c p n s = r →
      CanWriteSpec (chkCheck X (hasattrX X) .setattr c p n) (chkCheck X (hasattrX X) .getattr c p n) s r := by
    rintro r rfl
    rcases hk : chkCheck X (hasattrX X) .setattr c p n s with ⟨x, s1⟩
    cases x with
    | ok u =>
      have : canWriteWith X c p n s = (.ok true, s1) := by unfold canWriteWith; rw [hk]
      rw [this]; exact .yes hk
    | diverge =>
      have : canWriteWith X c p n s = (.diverge, s1) := by unfold canWriteWith; rw [hk]
      rw [this]; exact .hangs hk
    | err e =>
      rw [canWriteWith_err hk]
      by_cases he : IsUnauth e
      · rw [if_pos ((isUnauth_iff e).mpr he)]; exact .no hk he
      · rw [if_neg (by simp [not_unauth he])]
        by_cases hf : IsForbid e
        · rw [if_pos ((isForbid_iff e).mpr hf)]
          rcases hr : chkCheck X (hasattrX X) .getattr c p n s1 with ⟨y, s2⟩
          rw [canWriteWith_read X c p n s1 s2 y hr]
          cases y with
          | ok u => exact .readOnly hk hf hr
          | err e2 =>
            by_cases he2 : IsUnauth e2
            · simp only [(isUnauth_iff e2).mpr he2, if_true]; exact .readUnauth hk hf hr he2
            · simp only [not_unauth he2, if_false, Bool.false_eq_true]; exact .readRaises hk hf hr he2
          | diverge => exact .readHangs hk hf hr
        · rw [if_neg (by simp [not_forbid hf])]; exact .raises hk he hf
  refine ⟨fwd r, fun h => ?_⟩
  have h0 := fwd _ rfl
  generalize canWriteWith X c p n s = r0 at h0
  cases h with
  | yes h => cases h0 <;> simp_all
  | no h he =>
    cases h0 with
    | no h' _ => simp_all
    | readOnly h' hf | readUnauth h' hf | readRaises h' hf | readHangs h' hf =>
      rw [h] at h'; cases h'; exact absurd he (nf _ hf)
    | raises h' hn => rw [h] at h'; cases h'; exact absurd he hn
    | _ h' => rw [h] at h'; cases h'
  | readOnly h hf h2 | readUnauth h hf h2 | readRaises h hf h2 | readHangs h hf h2 =>
    cases h0 with
    | no h' he => rw [h] at h'; cases h'; exact absurd he (nf _ hf)
    | readOnly h' _ h2' | readUnauth h' _ h2' | readRaises h' _ h2' | readHangs h' _ h2' =>
      rw [h] at h'; cases h'; rw [h2] at h2'; cases h2' <;> first | rfl | contradiction
    | raises h' _ hn => rw [h] at h'; cases h'; exact absurd hf hn
    | _ h' => rw [h] at h'; cases h'
  | raises h hn hf =>
    cases h0 with
    | no h' he => rw [h] at h'; cases h'; exact absurd he hn
    | readOnly h' hf' | readUnauth h' hf' | readRaises h' hf' | readHangs h' hf' =>
      rw [h] at h'; cases h'; exact absurd hf' hf
    | raises h' => rw [h] at h'; cases h'; rfl
    | _ h' => rw [h] at h'; cases h'
  | hangs h => cases h0 <;> simp_all

/-- **C21** `canWrite(o, n)`, likewise: in particular True iff the write check grants, and ForbiddenAttribute
only if both checks forbid. -/
theorem C21_canWrite (X : Ctx A) (o : Val) (n : Name) (s : St A) :
    (∀ p s0 w c, proxyFactory X o .none s = (.ok p, s0) → current X.impl s0 p = some (w, c) → ∀ r,
      (canWrite X o n s = r ↔
        CanWriteSpec (chkCheck X (hasattrX X) .setattr c p n) (chkCheck X (hasattrX X) .getattr c p n) s0 r))
    ∧ (∀ p s0, proxyFactory X o .none s = (.ok p, s0) → ¬ IsProxy p → canWrite X o n s = (.err .typeError, s0))
    ∧ (∀ e s0, proxyFactory X o .none s = (.err e, s0) → canWrite X o n s = (.err e, s0)) := by
  refine ⟨fun p s0 w c hf hc r => ?_, fun p s0 hf hp => ?_, fun e s0 hf => ?_⟩
  · unfold canWrite
    rw [bind_ok hf, bind_ok (getChecker_current X p w c s0 hc)]
    exact canWriteWith_spec X c p n s0 r
  · unfold canWrite
    rw [bind_ok hf]
    cases p with
    | proxy i w c => exact absurd ⟨_, _, _, rfl⟩ hp
    | _ => rfl
  · unfold canWrite
    rw [run_bind, hf]

/-- **C21** The documented answers in one place. -/
theorem C21_answers (X : Ctx A) (p w c : Val) (n : Name) (s : St A) (hp : current X.impl s p = some (w, c)) :
    ((∃ s', canAccess X p n s = (.ok true, s')) ↔ ∃ s', chkCheck X (hasattrX X) .getattr c p n s = (.ok (), s'))
    ∧ ((∃ s', canAccess X p n s = (.ok false, s')) ↔
        ∃ e s', chkCheck X (hasattrX X) .getattr c p n s = (.err e, s') ∧ IsUnauth e)
    ∧ ((∃ s', canWrite X p n s = (.ok true, s')) ↔ ∃ s', chkCheck X (hasattrX X) .setattr c p n s = (.ok (), s'))
    ∧ (∀ e s', canWrite X p n s = (.err e, s') → IsForbid e →
        ∃ e' s1, chkCheck X (hasattrX X) .setattr c p n s = (.err e', s1) ∧ IsForbid e' ∧
          chkCheck X (hasattrX X) .getattr c p n s1 = (.err e, s')) := by
  have hpx : ∃ i w0 c0, p = .proxy i w0 c0 := by
    cases p with
    | proxy i w0 c0 => exact ⟨_, _, _, rfl⟩
    | _ => simp [current] at hp
  have hf : proxyFactory X p .none s = (.ok p, s) := (C09_factory_spec X p s _).mpr (.already hpx)
  have ha := (C21_canAccess X p n s).1 p s w c hf hp
  have hw := (C21_canWrite X p n s).1 p s w c hf hp
  refine ⟨⟨?_, ?_⟩, ⟨?_, ?_⟩, ⟨?_, ?_⟩, ?_⟩
  · rintro ⟨s', h⟩
    cases (ha _).mp h with
    | yes h => exact ⟨_, h⟩
  · rintro ⟨s', h⟩; exact ⟨s', (ha _).mpr (.yes h)⟩
  · rintro ⟨s', h⟩
    cases (ha _).mp h with
    | no h he => exact ⟨_, _, h, he⟩
  · rintro ⟨e, s', h, he⟩; exact ⟨s', (ha _).mpr (.no h he)⟩
  · rintro ⟨s', h⟩
    cases (hw _).mp h with
    | yes h => exact ⟨_, h⟩
  · rintro ⟨s', h⟩; exact ⟨s', (hw _).mpr (.yes h)⟩
  · intro e s' h he
    cases (hw _).mp h with
    | readRaises h1 h2 h3 _ => exact ⟨_, _, h1, h2, h3⟩
    | raises _ _ h => exact absurd he h

theorem factory_adds (X : Ctx A) (o : Val) : Adds (Only fun _ => False) (proxyFactory X o .none) := by
  have hQ : ∀ r, Only (fun _ => False) (.probed r) := fun _ => trivial
  unfold proxyFactory
  refine .ite (.bind ?_ fun c0 => ?_) ?_
  · unfold getChecker
    split
    · exact .bind .get fun _ => .pure _
    · exact .throw _
  · exact .ite (.pure _) (.throw _)
  · rw [if_pos rfl]
    refine .bind (.orNone (.getSC hQ _)) fun c => .ite (.bind (.selectChecker hQ _) fun c => ?_) (.newProxy _ _)
    exact .ite (.pure _) (.newProxy _ _)

/-- **C21** Neither performs the operation, or any other: all they run of application code is what the
package consults for its decisions.  (For `__iter__` a check may ask whether the object has that
attribute; through the proxy this reads it.) -/
theorem C21_no_operation (X : Ctx A) (o : Val) (n : Name) (hn : n ≠ "__iter__") (s : St A) :
    NewEvents s (canAccess X o n s).2 (Only fun _ => False) ∧ NewEvents s (canWrite X o n s).2 (Only fun _ => False) := by
  have hQ : ∀ r, Only (fun _ => False) (.probed r) := fun _ => trivial
  have hg : ∀ p, Adds (Only fun _ => False) (getChecker X p) := by
    intro p
    unfold getChecker
    split
    · exact .bind .get fun _ => .pure _
    · exact .throw _
  have hk : ∀ k c p, Adds (Only fun _ => False) (chkCheck X (hasattrX X) k c p n) :=
    fun k c p => .chkCheck hQ k c p n fun h => absurd h hn
  constructor
  · refine NewEvents.of_adds (Adds.bind (factory_adds X o) fun p => .bind (hg p) fun c => ?_) s
    exact .tryCatch (.bind (hk _ _ _) fun _ => .pure _) fun _ => .pure _
  · refine NewEvents.of_adds (Adds.bind (factory_adds X o) fun p => .bind (hg p) fun c => ?_) s
    intro s
    rcases hkk : chkCheck X (hasattrX X) .setattr c p n s with ⟨x, s1⟩
    have h1 := hk .setattr c p s
    rw [hkk] at h1
    cases x with
    | ok u =>
      have : canWriteWith X c p n s = (.ok true, s1) := by unfold canWriteWith; rw [hkk]
      rw [this]; exact h1
    | diverge =>
      have : canWriteWith X c p n s = (.diverge, s1) := by unfold canWriteWith; rw [hkk]
      rw [this]; exact h1
    | err e =>
      rw [canWriteWith_err hkk]
      split
      · exact h1
      · split
        · exact Adds.trans h1 (Adds.bind (Adds.tryCatch (hk _ _ _) fun _ => .pure _) (fun _ => .pure _) s1)
        · exact h1

/-! ## C22 canAccess predicts access -/

/-- The two computations do the same up to the object named in refusals. -/
def Sim {α : Type} (o o' : Val) (x y : M A α) : Prop :=
  ∀ s s', Ghost s s' → LikeRes o o' (x s).1 (y s').1 ∧ Ghost (x s).2 (y s').2

section
variable {o o' : Val} {α β : Type}

theorem Sim.pure (a : α) : Sim o o' (pure a : M A α) (pure a) := fun _ _ h => ⟨.ok, h⟩

theorem Sim.throw {e e' : Exn} (h : LikeExn o o' e e') : Sim o o' (M.throw e : M A α) (M.throw e') := fun _ _ hg => ⟨.err h, hg⟩

theorem Sim.bind {x y : M A α} {f g : α → M A β} (hx : Sim o o' x y) (hf : ∀ a, Sim o o' (f a) (g a)) :
    Sim o o' (x >>= f) (y >>= g) := by
  intro s s' hg
  obtain ⟨h1, h2⟩ := hx s s' hg
  rw [run_bind, run_bind]
  rcases hxs : x s with ⟨r, s1⟩
  rcases hys : y s' with ⟨r', s1'⟩
  rw [hxs, hys] at h1 h2
  cases h1 with
  | ok => exact hf _ _ _ h2
  | err h => exact ⟨.err h, h2⟩
  | diverge => exact ⟨.diverge, h2⟩

theorem Sim.get {f g : St A → M A α} (h : ∀ s s', Ghost s s' → Sim o o' (f s) (g s')) : Sim o o' (M.get >>= f) (M.get >>= g) :=
  fun s s' hg => h s s' hg s s' hg

theorem ghost_eq {s s' : St A} (h : Ghost s s') : ∃ tr, s' = { s with trace := tr } := by
  refine ⟨s'.trace, ?_⟩
  unfold Ghost at h
  cases s; cases s'
  simp only [St.mk.injEq] at h ⊢
  simp_all

theorem ghost_trace (s : St A) (tr tr' : List Event) : Ghost { s with trace := tr } { s with trace := tr' } := rfl

theorem Sim.ite {c : Prop} [Decidable c] {x y x' y' : M A α} (hx : Sim o o' x x') (hy : Sim o o' y y') :
    Sim o o' (if c then x else y) (if c then x' else y') := by
  split <;> assumption

theorem Sim.probe (X : Ctx A) {r r' : RawOp} (h : ∀ s s', Ghost s s' →
    (X.W.apply r s).1 = (X.W.apply r' s').1 ∧ Ghost (X.W.apply r s).2 (X.W.apply r' s').2) :
    Sim o o' (probe X r) (probe X r') := by
  intro s s' hg
  obtain ⟨tr, rfl⟩ := ghost_eq hg
  obtain ⟨h1, h2⟩ := h { s with trace := s.trace ++ [.probed r] } { s with trace := tr ++ [.probed r'] } rfl
  obtain ⟨tr', h2⟩ := ghost_eq h2
  unfold ZS.probe
  simp only [← h1, h2]
  refine ⟨?_, rfl⟩
  cases (X.W.apply r { s with trace := s.trace ++ [.probed r] }).1 with
  | ok => exact .ok
  | err => exact .err (.inl rfl)
  | diverge => exact .diverge

theorem Sim.ask (X : Ctx A) (hI : Indifferent X.W o o') (perm : Val) :
    Sim o o' (askInteraction X perm o) (askInteraction X perm o') := by
  refine .get fun s s' hg => ?_
  obtain ⟨tr, rfl⟩ := ghost_eq hg
  simp only
  split
  · exact .throw (.inl rfl)
  · refine .bind ?_ fun r => .pure _
    unfold ixCheckPermission
    split
    · refine .get fun s s' hg => ?_
      obtain ⟨tr, rfl⟩ := ghost_eq hg
      exact .ite (.pure _) (.pure _)
    · exact .probe X (hI _ _)

theorem Sim.askThrow (X : Ctx A) (hI : Indifferent X.W o o') (p : Val) (n : Name) :
    Sim o o' (if p = publicV then Pure.pure () else do
        let b ← askInteraction X p o
        if b then Pure.pure () else M.throw (.unauthorized o n p) : M A Unit)
      (if p = publicV then Pure.pure () else do
        let b ← askInteraction X p o'
        if b then Pure.pure () else M.throw (.unauthorized o' n p)) :=
  .ite (.pure _) (.bind (.ask X hI p) fun _ => .ite (.pure _) (.throw (.inr (.inl ⟨_, _, rfl, rfl⟩))))

theorem Sim.plainCheck (X : Ctx A) (hI : Indifferent X.W o o') (H H' : Val → Name → M A Bool) (g : Nat) (n : Name)
    (hH : n = "__iter__" → Sim o o' (H o n) (H' o' n)) :
    Sim o o' (plainCheck X H g o n) (plainCheck X H' g o' n) := by
  have hf : Sim o o' (M.throw (.forbidden n o) : M A Unit) (M.throw (.forbidden n o')) := .throw (.inr (.inr ⟨_, rfl, rfl⟩))
  unfold ZS.plainCheck
  split
  · refine .get fun s s' hg => ?_
    obtain ⟨tr, rfl⟩ := ghost_eq hg
    simp only
    split
    · exact .askThrow X hI _ n
    · refine .ite (.pure _) ?_
      by_cases hn : n = "__iter__"
      · rw [if_neg (not_not_intro hn), if_neg (not_not_intro hn)]
        exact .bind (hH hn) fun _ => .ite hf (.pure _)
      · rw [if_pos hn, if_pos hn]
        exact hf
  · refine .get fun s s' hg => ?_
    obtain ⟨tr, rfl⟩ := ghost_eq hg
    simp only
    split
    · exact .askThrow X hI _ n
    · by_cases hn : n = "__iter__"
      · rw [if_pos hn, if_pos hn]
        exact .ite (.ite (.pure _) (.bind (hH hn) fun _ => .ite hf (.pure _))) hf
      · rw [if_neg hn, if_neg hn]
        exact .ite (.ite (.pure _) hf) hf

theorem Sim.plainSetattr (X : Ctx A) (hI : Indifferent X.W o o') (st : Nat) (n : Name) :
    Sim o o' (plainSetattr X st o n) (plainSetattr X st o' n) := by
  have hf : Sim o o' (M.throw (.forbidden n o) : M A Unit) (M.throw (.forbidden n o')) := .throw (.inr (.inr ⟨_, rfl, rfl⟩))
  unfold ZS.plainSetattr
  split
  all_goals
    refine .get fun s s' hg => ?_
    obtain ⟨tr, rfl⟩ := ghost_eq hg
    simp only
    split
    · exact .askThrow X hI _ n
    · exact hf

theorem likeExn_kind {e e' : Exn} (h : LikeExn o o' e e') :
    e.isForbidden = e'.isForbidden ∧ e.isUnauthorized = e'.isUnauthorized := by
  rcases h with rfl | ⟨_, _, rfl, rfl⟩ | ⟨_, rfl, rfl⟩ <;> exact ⟨rfl, rfl⟩

theorem Sim.combine {x y x' y' : M A Unit} (hx : Sim o o' x x') (hy : Sim o o' y y') :
    Sim o o' (combine x y) (combine x' y') := by
  intro s s' hg
  obtain ⟨h1, h2⟩ := hx s s' hg
  unfold ZS.combine
  rcases hxs : x s with ⟨r, s1⟩
  rcases hys : x' s' with ⟨r', s1'⟩
  rw [hxs, hys] at h1 h2
  cases h1 with
  | ok => exact ⟨.ok, h2⟩
  | diverge => exact ⟨.diverge, h2⟩
  | @err e e' h =>
    obtain ⟨k1, k2⟩ := likeExn_kind h
    simp only [← k1, ← k2]
    split
    · exact hy _ _ h2
    · split
      · obtain ⟨h3, h4⟩ := hy _ _ h2
        rw [run_tryCatch, run_tryCatch]
        rcases hxs : y s1 with ⟨r, s2⟩
        rcases hys : y' s1' with ⟨r', s2'⟩
        rw [hxs, hys] at h3 h4
        cases h3 with
        | ok => exact ⟨.ok, h4⟩
        | diverge => exact ⟨.diverge, h4⟩
        | @err e2 e2' h5 =>
          simp only [← (likeExn_kind h5).1]
          split
          · exact ⟨.err h, h4⟩
          · exact ⟨.err h5, h4⟩
      · exact ⟨.err h, h2⟩

/-- A check of an ordinary checker does not depend on which of two objects it is about, if no policy
distinguishes them and, for `__iter__`, they are treated alike as to whether they have it. -/
theorem Sim.chkCheck (X : Ctx A) (hI : Indifferent X.W o o') (H H' : Val → Name → M A Bool) (k : CheckKind) (c : Val) (hc : Ordinary c)
    (n : Name) (hH : n = "__iter__" → Sim o o' (H o n) (H' o' n)) :
    Sim o o' (chkCheck X H k c o n) (chkCheck X H' k c o' n) := by
  induction c generalizing k with
  | checker id g st =>
    cases k
    · exact .plainCheck X hI H H' g n hH
    · exact .plainCheck X hI H H' g n hH
    · exact .plainSetattr X hI st n
  | combined id g st c2 ih =>
    cases k
    · exact .combine (.plainCheck X hI H H' g n hH) (ih _ hc)
    · exact .combine (.plainCheck X hI H H' g n hH) (ih _ hc)
    · exact .combine (.plainSetattr X hI st n) (ih _ hc)
  | _ => exact absurd hc id

end

/-- The predictions of `canAccess` and `canWrite`, with a judge `H'` of `__iter__`. -/
theorem predicts (X : Ctx A) (p w c : Val) (n : Name) (s : St A)
    (hp : current X.impl s p = some (w, c)) (hc : Ordinary c) (hI : Indifferent X.W p w)
    (H' : Val → Name → M A Bool) (hH : n = "__iter__" → Sim p w (hasattrX X p n) (H' w n)) :
    ((canAccess X p n s).1 = .ok true ↔ (chkCheck X H' .getattr c w n s).1 = .ok ())
    ∧ ((canAccess X p n s).1 = .ok false ↔ ∃ e, (chkCheck X H' .getattr c w n s).1 = .err e ∧ IsUnauth e)
    ∧ ((∃ e, (canAccess X p n s).1 = .err e ∧ IsForbid e) ↔
        ∃ e, (chkCheck X H' .getattr c w n s).1 = .err e ∧ IsForbid e)
    ∧ ((canWrite X p n s).1 = .ok true ↔ (chkCheck X H' .setattr c w n s).1 = .ok ()) := by
  have hpx : ∃ i w0 c0, p = .proxy i w0 c0 := by
    cases p with
    | proxy i w0 c0 => exact ⟨_, _, _, rfl⟩
    | _ => simp [current] at hp
  have hf : proxyFactory X p .none s = (.ok p, s) := (C09_factory_spec X p s _).mpr (.already hpx)
  have ha := ((C21_canAccess X p n s).1 p s w c hf hp _).mp rfl
  have hw := ((C21_canWrite X p n s).1 p s w c hf hp _).mp rfl
  have hr := (Sim.chkCheck X hI (hasattrX X) H' .getattr c hc n hH s s rfl).1
  have hs := (Sim.chkCheck X hI (hasattrX X) H' .setattr c hc n hH s s rfl).1
  generalize chkCheck X H' .getattr c w n s = cr at hr ⊢
  generalize chkCheck X H' .setattr c w n s = cs at hs ⊢
  generalize canAccess X p n s = ra at ha ⊢
  generalize canWrite X p n s = rw' at hw ⊢
  have lu : ∀ e e', LikeExn p w e e' → (IsUnauth e ↔ IsUnauth e') := by
    intro e e' h; rw [← isUnauth_iff, ← isUnauth_iff, (likeExn_kind h).2]
  have lf : ∀ e e', LikeExn p w e e' → (IsForbid e ↔ IsForbid e') := by
    intro e e' h; rw [← isForbid_iff, ← isForbid_iff, (likeExn_kind h).1]
  have nf : ∀ e, IsForbid e → ¬ IsUnauth e := by rintro _ ⟨_, _, rfl⟩ ⟨_, _, _, h⟩; cases h
  obtain ⟨cr1, cr2⟩ := cr
  obtain ⟨cs1, cs2⟩ := cs
  simp only at hr hs
  refine ⟨?_, ?_, ?_, ?_⟩
  · cases ha with
    | yes h => rw [h] at hr; cases hr; simp
    | no h _ => rw [h] at hr; cases hr; simp
    | raises h _ => rw [h] at hr; cases hr; simp
    | hangs h => rw [h] at hr; cases hr; simp
  · cases ha with
    | yes h => rw [h] at hr; cases hr; simp
    | no h hu => rw [h] at hr; cases hr with | err h' => simp [(lu _ _ h').mp hu]
    | raises h hu => rw [h] at hr; cases hr with | err h' => simp [mt (lu _ _ h').mpr hu]
    | hangs h => rw [h] at hr; cases hr; simp
  · cases ha with
    | yes h => rw [h] at hr; cases hr; simp
    | no h hu => rw [h] at hr; cases hr with | err h' => simp; exact fun hf => nf _ ((lf _ _ h').mpr hf) hu
    | raises h hu => rw [h] at hr; cases hr with | err h' => simpa using lf _ _ h'
    | hangs h => rw [h] at hr; cases hr; simp
  · cases hw with
    | yes h => rw [h] at hs; cases hs; simp
    | hangs h => rw [h] at hs; cases hs; simp
    | no h => rw [h] at hs; cases hs; simp
    | readOnly h => rw [h] at hs; cases hs; simp
    | readUnauth h => rw [h] at hs; cases hs; simp
    | readRaises h => rw [h] at hs; cases hs; simp
    | readHangs h => rw [h] at hs; cases hs; simp
    | raises h => rw [h] at hs; cases hs; simp

/-- **C22** `canAccess(p, n)` is True exactly if reading `n` through `p` passes its security check, False
exactly if that check raises Unauthorized, and it raises ForbiddenAttribute exactly if that check
does; `canWrite(p, n)` is True exactly if assigning `n` passes.  For ordinary checkers, policies
that do not distinguish the object from its proxy, and names other than `__iter__`. -/
theorem C22_predicts (X : Ctx A) (p w c : Val) (n : Name) (hn : n ≠ "__iter__") (s : St A)
    (hp : current X.impl s p = some (w, c)) (hc : Ordinary c) (hI : Indifferent X.W p w) :
    ((canAccess X p n s).1 = .ok true ↔ (chkCheck X (hasattrX X) .getattr c w n s).1 = .ok ())
    ∧ ((canAccess X p n s).1 = .ok false ↔ ∃ e, (chkCheck X (hasattrX X) .getattr c w n s).1 = .err e ∧ IsUnauth e)
    ∧ ((∃ e, (canAccess X p n s).1 = .err e ∧ IsForbid e) ↔
        ∃ e, (chkCheck X (hasattrX X) .getattr c w n s).1 = .err e ∧ IsForbid e)
    ∧ ((canWrite X p n s).1 = .ok true ↔ (chkCheck X (hasattrX X) .setattr c w n s).1 = .ok ()) :=
  predicts X p w c n s hp hc hI (hasattrX X) fun h => absurd h hn

/-- **C22** In terms of the operation itself, for compiled proxies: if `canAccess` says True, reading the
attribute through the proxy is carried out; if it says False, reading raises Unauthorized and does
nothing; if it raises ForbiddenAttribute, so does reading. -/
theorem C22_operation_c (X : Ctx A) (hX : X.impl = .c) (id : Nat) (w c : Val) (n : Name) (hn : n ≠ "__iter__") (s : St A)
    (hc : Ordinary c) (hI : Indifferent X.W (.proxy id w c) w) (b : Bool) :
    ((canAccess X (.proxy id w c) n s).1 = .ok true →
      ∃ s1, pop X (.proxy id w c) (.getattr n b) s = (do
        let v ← perform X (.getattr w n)
        chkProxy X c v : M A Val) s1)
    ∧ ((canAccess X (.proxy id w c) n s).1 = .ok false →
      ∃ e s1, pop X (.proxy id w c) (.getattr n b) s = (.err e, s1) ∧ IsUnauth e)
    ∧ ((∃ e, (canAccess X (.proxy id w c) n s).1 = .err e ∧ IsForbid e) →
      ∃ e s1, pop X (.proxy id w c) (.getattr n b) s = (.err e, s1) ∧ IsForbid e) := by
  obtain ⟨h1, h2, h3, _⟩ := C22_predicts X (.proxy id w c) w c n hn s (by rw [hX]; rfl) hc hI
  have hq : need .c (.proxy id w c) (.getattr n b) = some ⟨.proxy id w c, .getattr, n, fun w => .getattr w n⟩ := rfl
  have hrun := C13_exact_c X hX (.proxy id w c) ⟨_, _, _, rfl⟩ (.getattr n b) _ hq id w c rfl (by rintro ⟨_, h | h⟩ <;> cases h)
    (by simp) (by simp) s
  rcases hk : chkCheck X (hasattrX X) .getattr c w n s with ⟨r, s1⟩
  rw [hk] at h1 h2 h3
  refine ⟨fun h => ?_, fun h => ?_, fun h => ?_⟩
  · have := h1.mp h
    simp only at this; subst this
    refine ⟨s1, hrun.trans ?_⟩
    rw [bind_ok hk]; rfl
  · obtain ⟨e, he, hu⟩ := h2.mp h
    simp only at he; subst he
    exact ⟨e, s1, hrun.trans (bind_err hk), hu⟩
  · obtain ⟨e, he, hu⟩ := h3.mp h
    simp only at he; subst he
    exact ⟨e, s1, hrun.trans (bind_err hk), hu⟩

/-- **C22** Full statement (for every name) is false: for an iterable object whose checker does not declare
`__iter__`, `canAccess` says True although iteration and reading `__iter__` are forbidden, in both
implementations.  The check is made on the proxy, which itself hides `__iter__`. -/
theorem C22_iter_differs : ∀ impl,
    (canAccess (Ex.X impl) (.proxy 70 (.obj 2) Ex.c1) "__iter__" (Ex.s1 none)).1 = .ok true
    ∧ (pop (Ex.X impl) (.proxy 70 (.obj 2) Ex.c1) (.getattr "__iter__" false) (Ex.s1 none)).1
        = .err (.forbidden "__iter__" (.obj 2))
    ∧ (pop (Ex.X impl) (.proxy 70 (.obj 2) Ex.c1) .iter (Ex.s1 none)).1 = .err (.forbidden "__iter__" (.obj 2)) := by
  intro impl
  cases impl <;> refine ⟨by decide, by decide, by decide⟩

/-- Each row of the table of answers. -/
example : ∀ impl,
    (canAccess (Ex.X impl) (.proxy 70 (.obj 1) Ex.c1) "b" (Ex.s1 (some (.obj 50)))).1 = .ok true
    ∧ (canAccess (Ex.X impl) (.proxy 70 (.obj 1) Ex.c1) "c" (Ex.s1 (some (.obj 50)))).1 = .ok false
    ∧ (canAccess (Ex.X impl) (.proxy 70 (.obj 1) Ex.c1) "zz" (Ex.s1 (some (.obj 50)))).1
        = .err (.forbidden "zz" (.proxy 70 (.obj 1) Ex.c1))
    ∧ (canWrite (Ex.X impl) (.proxy 70 (.obj 1) Ex.c1) "w" (Ex.s1 (some (.obj 50)))).1 = .ok true
    ∧ (canWrite (Ex.X impl) (.proxy 70 (.obj 1) Ex.c1) "a" (Ex.s1 (some (.obj 50)))).1 = .ok false
    ∧ (canWrite (Ex.X impl) (.proxy 70 (.obj 1) Ex.c1) "c" (Ex.s1 (some (.obj 50)))).1 = .ok false
    ∧ (canWrite (Ex.X impl) (.proxy 70 (.obj 1) Ex.c1) "zz" (Ex.s1 (some (.obj 50)))).1
        = .err (.forbidden "zz" (.proxy 70 (.obj 1) Ex.c1))
    ∧ (canAccess (Ex.X impl) (.int 3) "zz" (Ex.s1 none)).1 = .err .typeError := by
  intro impl
  cases impl <;> refine ⟨by decide, by decide, by decide, by decide, by decide, by decide, by decide, by decide⟩

example (p w : Val) : Indifferent Ex.W p w := by
  intro v perm s s' hg
  have h : ∃ r, ∀ o s, Ex.W.apply (.method v "checkPermission" [perm, o]) s = (r, s) := by
    by_cases h0 : v = .obj 50
    · subst h0
      by_cases h1 : ∃ a, perm = .str a "view"
      · obtain ⟨a, rfl⟩ := h1
        exact ⟨_, fun _ _ => rfl⟩
      · refine ⟨.ok (.bool false), fun o s => ?_⟩
        simp only [Ex.W]
        split <;> simp_all
    · by_cases h1 : v = .obj 51
      · subst h1; exact ⟨_, fun _ _ => rfl⟩
      · refine ⟨.ok (.obj 7), fun o s => ?_⟩
        simp only [Ex.W]
        split <;> simp_all
  obtain ⟨r, h⟩ := h
  rw [h, h]
  exact ⟨rfl, hg⟩

end ZS.Props
