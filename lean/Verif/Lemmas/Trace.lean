import Verif.Model.Proxy
import Verif.Model.Access

/-!
# What computations add to the trace

`Adds Q x`: whatever happens, running `x` only appends to the trace, and only events with `Q`.
-/

namespace ZS
variable {A α β : Type}

/-- Running `x` appends to the trace events with `Q` only. -/
def Adds (Q : Event → Prop) (x : M A α) : Prop :=
  ∀ s, ∃ es, (x s).2.trace = s.trace ++ es ∧ ∀ e ∈ es, Q e

/-- An event of the package's own decision making. -/
def IsProbe : Event → Prop
  | .probed _ => True
  | .performed _ => False

namespace Adds
variable {Q : Event → Prop}

theorem none {x : M A α} (h : ∀ s, (x s).2.trace = s.trace) : Adds Q x := fun s => ⟨[], by simp [h s], by simp⟩

theorem pure (a : α) : Adds Q (pure a : M A α) := none fun _ => rfl
theorem get : Adds Q (M.get : M A (St A)) := none fun _ => rfl
theorem throw (e : Exn) : Adds Q (M.throw e : M A α) := none fun _ => rfl
theorem diverge : Adds Q (M.diverge : M A α) := none fun _ => rfl
theorem modify {f : St A → St A} (h : ∀ s, (f s).trace = s.trace) : Adds Q (M.modify f) := none h

/-- Two stretches of trace. -/
theorem trans {t0 t1 t2 : List Event} (h1 : ∃ es, t1 = t0 ++ es ∧ ∀ e ∈ es, Q e)
    (h2 : ∃ es, t2 = t1 ++ es ∧ ∀ e ∈ es, Q e) : ∃ es, t2 = t0 ++ es ∧ ∀ e ∈ es, Q e := by
  obtain ⟨e1, rfl, h1⟩ := h1
  obtain ⟨e2, rfl, h2⟩ := h2
  refine ⟨e1 ++ e2, by simp, fun e he => ?_⟩
  rcases List.mem_append.mp he with h | h
  · exact h1 e h
  · exact h2 e h

theorem bind {x : M A α} {f : α → M A β} (hx : Adds Q x) (hf : ∀ a, Adds Q (f a)) : Adds Q (x >>= f) := by
  intro s
  have h := hx s
  rw [run_bind]
  rcases hxs : x s with ⟨r, s1⟩
  rw [hxs] at h
  cases r with
  | ok a => exact trans h (hf a s1)
  | err e => exact h
  | diverge => exact h

theorem tryCatch {x : M A α} {p : Exn → Bool} {h : Exn → M A α} (hx : Adds Q x) (hh : ∀ e, Adds Q (h e)) :
    Adds Q (M.tryCatch x p h) := by
  intro s
  have h' := hx s
  rw [run_tryCatch]
  rcases hxs : x s with ⟨r, s1⟩
  rw [hxs] at h'
  cases r with
  | ok a => exact h'
  | err e =>
    simp only
    split
    · exact trans h' (hh e s1)
    · exact h'
  | diverge => exact h'

theorem combine {x y : M A Unit} (hx : Adds Q x) (hy : Adds Q y) : Adds Q (combine x y) := by
  intro s
  have h' := hx s
  unfold ZS.combine
  rcases hxs : x s with ⟨r, s1⟩
  rw [hxs] at h'
  cases r with
  | ok a => exact h'
  | err e =>
    simp only
    split
    · exact trans h' (hy s1)
    · split
      · exact trans h' (tryCatch hy (fun e => throw _) s1)
      · exact h'
  | diverge => exact h'

theorem ite {c : Prop} [Decidable c] {x y : M A α} (hx : Adds Q x) (hy : Adds Q y) : Adds Q (if c then x else y) := by
  split <;> assumption

theorem mono {Q' : Event → Prop} {x : M A α} (hx : Adds Q x) (h : ∀ e, Q e → Q' e) : Adds Q' x := by
  intro s
  obtain ⟨es, h1, h2⟩ := hx s
  exact ⟨es, h1, fun e he => h e (h2 e he)⟩

end Adds

section
variable {Q : Event → Prop} {X : Ctx A}

theorem Adds.probe' (r : RawOp) (h : Q (.probed r)) : Adds Q (probe X r) :=
  fun s => ⟨[.probed r], rfl, by simpa using h⟩

theorem Adds.perform (r : RawOp) (h : Q (.performed r)) : Adds Q (perform X r) :=
  fun s => ⟨[.performed r], rfl, by simpa using h⟩

variable (hQ : ∀ r, Q (.probed r))
include hQ

theorem Adds.probe (r : RawOp) : Adds Q (probe X r) := .probe' r (hQ r)

theorem Adds.askInteraction (p o : Val) : Adds Q (askInteraction X p o) := by
  refine .bind .get fun s => ?_
  split
  · exact .throw _
  · refine .bind ?_ fun r => .pure _
    unfold ixCheckPermission
    split
    · refine .bind .get fun s => ?_
      exact .ite (.pure _) (.pure _)
    · exact .probe hQ _

theorem Adds.plainSetattr (st : Nat) (o : Val) (n : Name) : Adds Q (plainSetattr X st o n) := by
  unfold ZS.plainSetattr
  split
  all_goals
    first
    | unfold plainSetattrPy
    | unfold plainSetattrC
    refine .bind .get fun s => ?_
    split
    · refine .ite (.pure _) (.bind (.askInteraction hQ _ _) fun b => ?_)
      exact .ite (.pure _) (.throw _)
    · exact .throw _

/-- A read check probes, and asks `hasattr` of the object about `__iter__` only. -/
theorem Adds.plainCheck {H : Val → Name → M A Bool} (g : Nat) (o : Val) (n : Name)
    (hH : n = "__iter__" → Adds Q (H o n)) : Adds Q (plainCheck X H g o n) := by
  unfold ZS.plainCheck
  split
  · unfold plainCheckPy
    refine .bind .get fun s => ?_
    split
    · refine .ite (.pure _) (.bind (.askInteraction hQ _ _) fun b => ?_)
      exact .ite (.pure _) (.throw _)
    · refine .ite (.pure _) ?_
      split
      · exact .throw _
      · next h => exact .bind (hH (by simpa using h)) fun b => .ite (.throw _) (.pure _)
  · unfold plainCheckC
    refine .bind .get fun s => ?_
    split
    · refine .ite (.pure _) (.bind (.askInteraction hQ _ _) fun b => ?_)
      exact .ite (.pure _) (.throw _)
    · refine .ite (.ite (.pure _) ?_) (.throw _)
      split
      · next h => exact .bind (hH h) fun b => .ite (.throw _) (.pure _)
      · exact .throw _

theorem Adds.chkCheck {H : Val → Name → M A Bool} (k : CheckKind) (c o : Val) (n : Name)
    (hH : n = "__iter__" → Adds Q (H o n)) : Adds Q (chkCheck X H k c o n) := by
  induction c generalizing k with
  | combined id g st c2 ih =>
    cases k <;> simp only [ZS.chkCheck]
    · exact .combine (.plainCheck hQ _ _ _ hH) (ih _)
    · exact .combine (.plainCheck hQ _ _ _ hH) (ih _)
    · exact .combine (.plainSetattr hQ _ _ _) (ih _)
  | checker id g st =>
    cases k <;> simp only [ZS.chkCheck]
    · exact .plainCheck hQ _ _ _ hH
    · exact .plainCheck hQ _ _ _ hH
    · exact .plainSetattr hQ _ _ _
  | _ =>
    simp only [ZS.chkCheck]
    exact .bind (.probe hQ _) fun _ => .pure _

omit hQ in
theorem Adds.newProxy (v c : Val) : Adds Q (newProxy v c : M A Val) := by
  refine .ite (.throw _) (.bind .get fun s => .bind (.modify fun _ => rfl) fun _ => .pure _)

theorem Adds.callFactory (f o : Val) : Adds Q (callFactory X f o) := by
  unfold ZS.callFactory
  split
  · refine .bind .get fun s => ?_
    split <;> exact .pure _
  all_goals first | exact .throw _ | exact .probe hQ _

theorem Adds.selectLoop (o : Val) (k : Nat) (c : Val) : Adds Q (selectLoop X o k c) := by
  induction k generalizing c with
  | zero => unfold ZS.selectLoop; exact .ite (.pure _) .diverge
  | succ k ih =>
    unfold ZS.selectLoop
    refine .ite (.pure _) (.bind (.callFactory hQ _ _) fun c' => .ite (.pure _) (ih _))

theorem Adds.selectChecker (o : Val) : Adds Q (selectChecker X o) := by
  unfold ZS.selectChecker
  split
  · exact .bind .get fun s => .ite (.pure _) (.selectLoop hQ _ _ _)
  · exact .bind .get fun s => .ite (.pure _) (.ite (.pure _) (.selectLoop hQ _ _ _))

omit hQ in
theorem Adds.orNone {x : M A Val} (h : Adds Q x) : Adds Q (orNone x) := .tryCatch h fun _ => .pure _

omit hQ in
theorem Adds.newCombined (c1 c2 : Val) : Adds Q (newCombined c1 c2 : M A Val) := by
  unfold ZS.newCombined
  split
  · exact .bind .get fun s => .bind (.modify fun _ => rfl) fun _ => .pure _
  · exact .throw _

theorem Adds.getSC (v : Val) : Adds Q (getSC X v) := by
  induction v with
  | deco id cls inner ih =>
    unfold ZS.getSC
    refine .bind ?_ fun c => .bind (.selectChecker hQ _) fun w => ?_
    · split
      · exact .bind .get fun s => .pure _
      · refine .bind (.orNone ih) fun c => ?_
        exact .ite (.selectChecker hQ _) (.pure _)
    · exact .ite (.throw _) (.ite (.pure _) (.ite (.pure _) (.newCombined _ _)))
  | _ => unfold ZS.getSC; first | exact .throw _ | exact .probe hQ _

theorem Adds.selectProxy (v : Val) :
    Adds Q (do let c ← ZS.selectChecker X v; if c = .none then Pure.pure v else ZS.newProxy v c : M A Val) :=
  .bind (.selectChecker hQ _) fun _ => .ite (.pure _) (.newProxy _ _)

/-- Protecting a result only probes. -/
theorem Adds.chkProxy (c v : Val) : Adds Q (chkProxy X c v) := by
  unfold ZS.chkProxy
  refine .ite ?_ (.probe hQ _)
  split
  · unfold proxyPy
    refine .ite (.pure _) (.bind (.orNone (.getSC hQ _)) fun c => .ite (.selectProxy hQ v) (.newProxy _ _))
  · unfold proxyC
    refine .ite (.pure _) ?_
    intro s
    have h := Adds.getSC (X := X) hQ v s
    rcases hg : ZS.getSC X v s with ⟨r, s1⟩
    rw [hg] at h
    simp only [hg]
    cases r with
    | ok c =>
      simp only
      split
      · exact h
      · exact Adds.trans h (Adds.newProxy v c s1)
    | err e => exact Adds.trans h (Adds.selectProxy hQ v s1)
    | diverge => exact h

omit hQ in
theorem Adds.getChecker (v : Val) : Adds Q (getChecker X v) := by
  unfold ZS.getChecker
  split
  · exact .bind .get fun s => .pure _
  · exact .throw _

theorem Adds.proxyFactory (o c : Val) : Adds Q (proxyFactory X o c) := by
  unfold ZS.proxyFactory
  refine .ite (.bind (.getChecker _) fun _ => .ite (.pure _) (.throw _)) (.ite ?_ (.newProxy _ _))
  exact .bind (.orNone (.getSC hQ _)) fun c => .ite (.selectProxy hQ o) (.newProxy _ _)

omit hQ in
theorem Adds.hasattrOf {x : M A Val} (h : Adds Q x) : Adds Q (hasattrOf X x) := by
  intro s
  have h' := h s
  unfold ZS.hasattrOf
  rcases hx : x s with ⟨r, s1⟩
  rw [hx] at h'
  cases r with
  | ok _ => exact h'
  | err e => simp only; split <;> try split
             all_goals exact h'
  | diverge => exact h'

end

end ZS
