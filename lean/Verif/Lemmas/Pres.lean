import Verif.Model.Proxy
import Verif.Model.Access

/-!
# Preservation of state predicates

`Pres P x`: running `x` keeps `P`, however it ends.
-/

namespace ZS
variable {A α β : Type}

/-- Running `x` from a state with `P` ends in a state with `P`. -/
def Pres (P : St A → Prop) (x : M A α) : Prop := ∀ s, P s → P (x s).2

namespace Pres
variable {P : St A → Prop}

theorem pure (a : α) : Pres P (pure a : M A α) := fun _ h => h
theorem get : Pres P (M.get : M A (St A)) := fun _ h => h
theorem throw (e : Exn) : Pres P (M.throw e : M A α) := fun _ h => h
theorem diverge : Pres P (M.diverge : M A α) := fun _ h => h
theorem modify {f : St A → St A} (h : ∀ s, P s → P (f s)) : Pres P (M.modify f) := h

theorem bind {x : M A α} {f : α → M A β} (hx : Pres P x) (hf : ∀ a, Pres P (f a)) : Pres P (x >>= f) := by
  intro s hs
  have h := hx s hs
  rw [run_bind]
  rcases hxs : x s with ⟨r, s1⟩
  rw [hxs] at h
  cases r with
  | ok a => exact hf a s1 h
  | err e => exact h
  | diverge => exact h

theorem tryCatch {x : M A α} {p : Exn → Bool} {h : Exn → M A α} (hx : Pres P x) (hh : ∀ e, Pres P (h e)) :
    Pres P (M.tryCatch x p h) := by
  intro s hs
  have h' := hx s hs
  rw [run_tryCatch]
  rcases hxs : x s with ⟨r, s1⟩
  rw [hxs] at h'
  cases r with
  | ok a => exact h'
  | err e =>
    simp only
    split
    · exact hh e s1 h'
    · exact h'
  | diverge => exact h'

theorem combine {x y : M A Unit} (hx : Pres P x) (hy : Pres P y) : Pres P (combine x y) := by
  intro s hs
  have h' := hx s hs
  unfold ZS.combine
  rcases hxs : x s with ⟨r, s1⟩
  rw [hxs] at h'
  cases r with
  | ok a => exact h'
  | err e =>
    simp only
    split
    · exact hy s1 h'
    · split
      · exact tryCatch hy (fun e => throw _) s1 h'
      · exact h'
  | diverge => exact h'

theorem ite {c : Prop} [Decidable c] {x y : M A α} (hx : Pres P x) (hy : Pres P y) : Pres P (if c then x else y) := by
  split <;> assumption

theorem fn {x : M A α} {f : Res α × St A → Res β × St A} (hx : Pres P x)
    (hf : ∀ r s, P s → P (f (r, s)).2) : Pres P (fun s => f (x s)) := by
  intro s hs
  exact hf _ _ (hx s hs)

end Pres

/-- The outside world keeps `P`, and so do the bookkeeping of the trace and of identifiers. -/
structure Keeps (P : St A → Prop) (W : World A) : Prop where
  apply : ∀ r s, P s → P (W.apply r s).2
  trace : ∀ s tr, P s → P { s with trace := tr }
  nextId : ∀ s, P s → P { s with nextId := s.nextId + 1 }

section
variable {P : St A → Prop} {X : Ctx A}

theorem Pres.probe (hW : Keeps P X.W) (r : RawOp) : Pres P (probe X r) := by
  intro s hs
  exact hW.trace _ _ (hW.apply _ _ (hW.trace _ _ hs))

theorem Pres.perform (hW : Keeps P X.W) (r : RawOp) : Pres P (perform X r) := by
  intro s hs
  exact hW.trace _ _ (hW.apply _ _ (hW.trace _ _ hs))

theorem Pres.askInteraction (hW : Keeps P X.W) (p o : Val) : Pres P (askInteraction X p o) := by
  refine .bind .get fun s => ?_
  split
  · exact .throw _
  · refine .bind ?_ fun r => .pure _
    unfold ixCheckPermission
    split
    · refine .bind .get fun s => ?_
      exact .ite (.pure _) (.pure _)
    · exact .probe hW _

theorem Pres.plainSetattr (hW : Keeps P X.W) (st : Nat) (o : Val) (n : Name) : Pres P (plainSetattr X st o n) := by
  unfold ZS.plainSetattr
  split
  all_goals
    first
    | unfold plainSetattrPy
    | unfold plainSetattrC
    refine .bind .get fun s => ?_
    split
    · refine .ite (.pure _) (.bind (.askInteraction hW _ _) fun b => ?_)
      exact .ite (.pure _) (.throw _)
    · exact .throw _

theorem Pres.plainCheck (hW : Keeps P X.W) {H : Val → Name → M A Bool} (hH : ∀ o n, Pres P (H o n)) (g : Nat)
    (o : Val) (n : Name) : Pres P (plainCheck X H g o n) := by
  unfold ZS.plainCheck
  split
  · unfold plainCheckPy
    refine .bind .get fun s => ?_
    split
    · refine .ite (.pure _) (.bind (.askInteraction hW _ _) fun b => ?_)
      exact .ite (.pure _) (.throw _)
    · refine .ite (.pure _) (.ite (.throw _) (.bind (hH _ _) fun b => ?_))
      exact .ite (.throw _) (.pure _)
  · unfold plainCheckC
    refine .bind .get fun s => ?_
    split
    · refine .ite (.pure _) (.bind (.askInteraction hW _ _) fun b => ?_)
      exact .ite (.pure _) (.throw _)
    · refine .ite (.ite (.pure _) (.ite (.bind (hH _ _) fun b => ?_) (.throw _))) (.throw _)
      exact .ite (.throw _) (.pure _)

theorem Pres.chkCheck (hW : Keeps P X.W) {H : Val → Name → M A Bool} (hH : ∀ o n, Pres P (H o n)) (k : CheckKind)
    (c o : Val) (n : Name) : Pres P (chkCheck X H k c o n) := by
  induction c generalizing k with
  | combined id g st c2 ih =>
    cases k <;> simp only [ZS.chkCheck]
    · exact .combine (.plainCheck hW hH _ _ _) (ih _)
    · exact .combine (.plainCheck hW hH _ _ _) (ih _)
    · exact .combine (.plainSetattr hW _ _ _) (ih _)
  | checker id g st =>
    cases k <;> simp only [ZS.chkCheck]
    · exact .plainCheck hW hH _ _ _
    · exact .plainCheck hW hH _ _ _
    · exact .plainSetattr hW _ _ _
  | _ =>
    simp only [ZS.chkCheck]
    exact .bind (.probe hW _) fun _ => .pure _

theorem Pres.newProxy (hW : Keeps P X.W) (v c : Val) : Pres P (newProxy v c : M A Val) := by
  refine .ite (.throw _) (.bind .get fun s => .bind (.modify hW.nextId) fun _ => .pure _)

theorem Pres.callFactory (hW : Keeps P X.W) (f o : Val) : Pres P (callFactory X f o) := by
  unfold ZS.callFactory
  split
  · refine .bind .get fun s => ?_
    split <;> exact .pure _
  all_goals first | exact .throw _ | exact .probe hW _

theorem Pres.selectLoop (hW : Keeps P X.W) (o : Val) (k : Nat) (c : Val) : Pres P (selectLoop X o k c) := by
  induction k generalizing c with
  | zero => unfold ZS.selectLoop; exact .ite (.pure _) .diverge
  | succ k ih =>
    unfold ZS.selectLoop
    refine .ite (.pure _) (.bind (.callFactory hW _ _) fun c' => .ite (.pure _) (ih _))

theorem Pres.selectChecker (hW : Keeps P X.W) (o : Val) : Pres P (selectChecker X o) := by
  unfold ZS.selectChecker
  split
  · exact .bind .get fun s => .ite (.pure _) (.selectLoop hW _ _ _)
  · exact .bind .get fun s => .ite (.pure _) (.ite (.pure _) (.selectLoop hW _ _ _))

theorem Pres.orNone {x : M A Val} (h : Pres P x) : Pres P (orNone x) := .tryCatch h fun _ => .pure _

theorem Pres.newCombined (hW : Keeps P X.W) (c1 c2 : Val) : Pres P (newCombined c1 c2 : M A Val) := by
  unfold ZS.newCombined
  split
  · exact .bind .get fun s => .bind (.modify hW.nextId) fun _ => .pure _
  · exact .throw _

theorem Pres.getSC (hW : Keeps P X.W) (v : Val) : Pres P (getSC X v) := by
  induction v with
  | deco id cls inner ih =>
    unfold ZS.getSC
    refine .bind ?_ fun c => .bind (.selectChecker hW _) fun w => ?_
    · split
      · exact .bind .get fun s => .pure _
      · refine .bind (.orNone ih) fun c => ?_
        exact .ite (.selectChecker hW _) (.pure _)
    · exact .ite (.throw _) (.ite (.pure _) (.ite (.pure _) (.newCombined hW _ _)))
  | _ => unfold ZS.getSC; first | exact .throw _ | exact .probe hW _

theorem Pres.selectProxy (hW : Keeps P X.W) (v : Val) :
    Pres P (do let c ← ZS.selectChecker X v; if c = .none then Pure.pure v else ZS.newProxy v c : M A Val) :=
  .bind (.selectChecker hW _) fun _ => .ite (.pure _) (.newProxy hW _ _)

theorem Pres.chkProxy (hW : Keeps P X.W) (c v : Val) : Pres P (chkProxy X c v) := by
  unfold ZS.chkProxy
  refine .ite ?_ (.probe hW _)
  split
  · unfold proxyPy
    refine .ite (.pure _) (.bind (.orNone (.getSC hW _)) fun c => .ite (.selectProxy hW v) (.newProxy hW _ _))
  · unfold proxyC
    refine .ite (.pure _) ?_
    intro s hs
    have h := Pres.getSC hW v s hs
    rcases hg : ZS.getSC X v s with ⟨r, s1⟩
    rw [hg] at h
    simp only [hg]
    cases r with
    | ok c =>
      simp only
      split
      · exact h
      · exact Pres.newProxy hW v c s1 h
    | err e => exact Pres.selectProxy hW v s1 h
    | diverge => exact h

theorem Pres.getChecker (v : Val) : Pres P (getChecker X v) := by
  unfold ZS.getChecker
  split
  · exact .bind .get fun s => .pure _
  · exact .throw _

theorem Pres.proxyFactory (hW : Keeps P X.W) (o c : Val) : Pres P (proxyFactory X o c) := by
  unfold ZS.proxyFactory
  refine .ite (.bind (.getChecker _) fun _ => .ite (.pure _) (.throw _)) (.ite ?_ (.newProxy hW _ _))
  exact .bind (.orNone (.getSC hW _)) fun c => .ite (.selectProxy hW o) (.newProxy hW _ _)

theorem Pres.hasattrOf {x : M A Val} (h : Pres P x) : Pres P (hasattrOf X x) := by
  intro s hs
  have h' := h s hs
  unfold ZS.hasattrOf
  rcases hx : x s with ⟨r, s1⟩
  rw [hx] at h'
  cases r with
  | ok _ => exact h'
  | err e => simp only; split <;> try split
             all_goals exact h'
  | diverge => exact h'

theorem Pres.getattroC (hW : Keeps P X.W) {H : Val → Name → M A Bool} (hH : ∀ o n, Pres P (H o n)) (w c : Val)
    (n : Name) : Pres P (getattroC X H w c n) :=
  .bind (.chkCheck hW hH _ _ _ _) fun _ => .bind (.perform hW _) fun _ => .chkProxy hW _ _

theorem Pres.getattributePy (hW : Keeps P X.W) {H : Val → Name → M A Bool} (hH : ∀ o n, Pres P (H o n)) (id : Nat)
    (w c : Val) (n : Name) (inside : Bool) : Pres P (getattributePy X H id w c n inside) := by
  unfold ZS.getattributePy
  refine .ite (.throw _) (.bind .get fun s => .ite (.pure _) (.ite (.pure _) (.bind ?_ fun _ => ?_)))
  · exact .ite (.pure _) (.chkCheck hW hH _ _ _ _)
  · refine .ite (.bind (.perform hW _) fun _ => .chkProxy hW _ _) (.bind .get fun s1 => ?_)
    exact .bind (.perform hW _) fun _ => .chkProxy hW _ _

theorem Pres.getattrPy (hW : Keeps P X.W) {H : Val → Name → M A Bool} (hH : ∀ o n, Pres P (H o n)) (id : Nat)
    (w c : Val) (n : Name) (inside : Bool) : Pres P (getattrPy X H id w c n inside) :=
  .tryCatch (.getattributePy hW hH _ _ _ _ _) fun _ => .bind .get fun _ => .bind (.chkCheck hW hH _ _ _ _) fun _ => .throw _

theorem Pres.hasattrD (hW : Keeps P X.W) (k : Nat) (v : Val) (n : Name) : Pres P (hasattrD X k v n) := by
  induction k generalizing v n with
  | zero => unfold ZS.hasattrD; exact .hasattrOf (.probe hW _)
  | succ k ih =>
    cases v with
    | proxy id w c =>
      simp only [ZS.hasattrD]
      refine .hasattrOf ?_
      split
      · exact .getattroC hW ih _ _ _
      · exact .getattrPy hW ih _ _ _ _ _
    | _ => simp only [ZS.hasattrD]; exact .hasattrOf (.probe hW _)

theorem Pres.hasattrX (hW : Keeps P X.W) (v : Val) (n : Name) : Pres P (hasattrX X v n) := Pres.hasattrD hW _ _ _

theorem Pres.guard (hW : Keeps P X.W) (k : CheckKind) (c w : Val) (n : Name) : Pres P (guard X k c w n) :=
  .chkCheck hW (fun o n => .hasattrX hW o n) _ _ _ _

end

end ZS
