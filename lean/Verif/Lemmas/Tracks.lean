import Verif.Lemmas.Trace
import Verif.Spec.Secret

/-!
# What a computation depends on is in its record

`Tracks W S x x'`: whatever happens, running `x` only appends to the record; its own questions are
those of `Internal`; and if nothing appended has `S`, running `x'` does the same.  Here `x'` is the same
code in a world that differs in operations with `S`.
-/

namespace ZS
open Spec
variable {A α β : Type}

/-- The operation of an event. -/
def Event.raw : Event → RawOp
  | .performed r => r
  | .probed r => r

def Tracks (W : World A) (S : RawOp → Prop) (x x' : M A α) : Prop :=
  ∀ s, ∃ es, (x s).2.trace = s.trace ++ es ∧ (∀ r, Event.probed r ∈ es → Internal W r) ∧
    ((∀ e ∈ es, ¬ S e.raw) → x' s = x s)

namespace Tracks
variable {W : World A} {S : RawOp → Prop}

theorem silent {x : M A α} (h : ∀ s, (x s).2.trace = s.trace) : Tracks W S x x :=
  fun s => ⟨[], by simp [h s], by simp, fun _ => rfl⟩

theorem pure (a : α) : Tracks W S (pure a : M A α) (Pure.pure a) := silent fun _ => rfl
theorem get : Tracks W S (M.get : M A (St A)) M.get := silent fun _ => rfl
theorem throw (e : Exn) : Tracks W S (M.throw e : M A α) (M.throw e) := silent fun _ => rfl
theorem diverge : Tracks W S (M.diverge : M A α) M.diverge := silent fun _ => rfl
theorem modify {f : St A → St A} (h : ∀ s, (f s).trace = s.trace) : Tracks W S (M.modify f) (M.modify f) := silent h

/-- Two stretches. -/
theorem both {t0 : List Event} {p1 p1' : Res α × St A} {p2 p2' : Res β × St A}
    (h1 : ∃ es, p1.2.trace = t0 ++ es ∧ (∀ r, Event.probed r ∈ es → Internal W r) ∧ ((∀ e ∈ es, ¬ S e.raw) → p1' = p1))
    (h2 : ∃ es, p2.2.trace = p1.2.trace ++ es ∧ (∀ r, Event.probed r ∈ es → Internal W r) ∧
      ((∀ e ∈ es, ¬ S e.raw) → p1' = p1 → p2' = p2)) :
    ∃ es, p2.2.trace = t0 ++ es ∧ (∀ r, Event.probed r ∈ es → Internal W r) ∧ ((∀ e ∈ es, ¬ S e.raw) → p2' = p2) := by
  obtain ⟨e1, a1, b1, c1⟩ := h1
  obtain ⟨e2, a2, b2, c2⟩ := h2
  refine ⟨e1 ++ e2, by rw [a2, a1, List.append_assoc], fun r hr => ?_, fun h => ?_⟩
  · rcases List.mem_append.mp hr with h | h
    · exact b1 r h
    · exact b2 r h
  · exact c2 (fun e he => h e (List.mem_append.mpr (.inr he))) (c1 fun e he => h e (List.mem_append.mpr (.inl he)))

/-- One more stretch after `x`, of `y` in the one case and of `y'` in the other. -/
theorem after {x x' : M A α} {y y' : M A β} {s s1 : St A} {r : Res α} {p' : Res β × St A} (hx : Tracks W S x x')
    (hs : x s = (r, s1)) (hy : Tracks W S y y') (hp : x' s = (r, s1) → p' = y' s1) :
    ∃ es, (y s1).2.trace = s.trace ++ es ∧ (∀ r, Event.probed r ∈ es → Internal W r) ∧
      ((∀ e ∈ es, ¬ S e.raw) → p' = y s1) := by
  have h := hx s
  rw [hs] at h
  refine both h ?_
  obtain ⟨es, a, b, c⟩ := hy s1
  exact ⟨es, a, b, fun h1 h2 => (hp h2).trans (c h1)⟩

/-- Nothing more happens. -/
theorem done {x x' : M A α} {s s1 : St A} {r : Res α} {q : Res β} {p' : Res β × St A} (hx : Tracks W S x x')
    (hs : x s = (r, s1)) (hp : x' s = (r, s1) → p' = (q, s1)) :
    ∃ es, s1.trace = s.trace ++ es ∧ (∀ r, Event.probed r ∈ es → Internal W r) ∧
      ((∀ e ∈ es, ¬ S e.raw) → p' = (q, s1)) := by
  have h := hx s
  rw [hs] at h
  obtain ⟨es, a, b, c⟩ := h
  exact ⟨es, a, b, fun h => hp (c h)⟩

theorem bind {x x' : M A α} {f f' : α → M A β} (hx : Tracks W S x x') (hf : ∀ a, Tracks W S (f a) (f' a)) :
    Tracks W S (x >>= f) (x' >>= f') := by
  intro s
  rw [run_bind, run_bind]
  rcases hxs : x s with ⟨r, s1⟩
  cases r with
  | ok a => exact after hx hxs (hf a) fun h => by rw [h]
  | err e => exact done hx hxs fun h => by rw [h]
  | diverge => exact done hx hxs fun h => by rw [h]

/-- The rest may depend on where the result comes from. -/
theorem bindRun {x x' : M A α} {f f' : α → M A β} (hx : Tracks W S x x')
    (hf : ∀ a s s1, x s = (.ok a, s1) → Tracks W S (f a) (f' a)) : Tracks W S (x >>= f) (x' >>= f') := by
  intro s
  rw [run_bind, run_bind]
  rcases hxs : x s with ⟨r, s1⟩
  cases r with
  | ok a => exact after hx hxs (hf a s s1 hxs) fun h => by rw [h]
  | err e => exact done hx hxs fun h => by rw [h]
  | diverge => exact done hx hxs fun h => by rw [h]

theorem tryCatch {x x' : M A α} {p : Exn → Bool} {h h' : Exn → M A α} (hx : Tracks W S x x')
    (hh : ∀ e, Tracks W S (h e) (h' e)) : Tracks W S (M.tryCatch x p h) (M.tryCatch x' p h') := by
  intro s
  rw [run_tryCatch, run_tryCatch]
  rcases hxs : x s with ⟨r, s1⟩
  cases r with
  | ok a => exact done hx hxs fun h => by rw [h]
  | err e =>
    simp only
    cases hp : p e with
    | true =>
      rw [if_pos rfl]
      exact after hx hxs (hh e) fun h => by rw [h]; simp [hp]
    | false =>
      rw [if_neg (by simp)]
      exact done hx hxs fun h => by rw [h]; simp [hp]
  | diverge => exact done hx hxs fun h => by rw [h]

theorem combine {x x' y y' : M A Unit} (hx : Tracks W S x x') (hy : Tracks W S y y') :
    Tracks W S (combine x y) (combine x' y') := by
  intro s
  unfold ZS.combine
  rcases hxs : x s with ⟨r, s1⟩
  cases r with
  | ok a => exact done hx hxs fun h => by rw [h]
  | err e =>
    simp only
    cases h1 : e.isForbidden with
    | true =>
      rw [if_pos rfl]
      exact after hx hxs hy fun h => by rw [h]; simp [h1]
    | false =>
      rw [if_neg (by simp)]
      cases h2 : e.isUnauthorized with
      | true =>
        rw [if_pos rfl]
        exact after hx hxs (tryCatch hy fun _ => throw e) fun h => by rw [h]; simp [h1, h2]
      | false =>
        rw [if_neg (by simp)]
        exact done hx hxs fun h => by rw [h]; simp [h1, h2]
  | diverge => exact done hx hxs fun h => by rw [h]

theorem ite {c : Prop} [Decidable c] {x x' y y' : M A α} (hx : Tracks W S x x') (hy : Tracks W S y y') :
    Tracks W S (if c then x else y) (if c then x' else y') := by
  split <;> assumption

end Tracks

section
variable {S : RawOp → Prop} {X : Ctx A} {f : RawOp → St A → Res Val × St A} (hf : DifferIn S X f)
include hf

theorem Tracks.probe (r : RawOp) (h : Internal X.W r) : Tracks X.W S (probe X r) (probe (alter X f) r) := by
  intro s
  refine ⟨[.probed r], rfl, by simpa using h, fun hs => ?_⟩
  have : ¬ S r := hs (.probed r) (by simp)
  simp only [ZS.probe, alter, hf r _ this]

/-- After asking for a class its names may be asked for. -/
theorem Tracks.classOf (w : Val) {g g' : Val → M A α}
    (h : ∀ k, (∀ n, n = "__name__" ∨ n = "__module__" → Internal X.W (.getattr k n)) → Tracks X.W S (g k) (g' k)) :
    Tracks X.W S (ZS.probe X (.getattr w "__class__") >>= g) (ZS.probe (alter X f) (.getattr w "__class__") >>= g') := by
  refine .bindRun (.probe hf _ .theClass) fun k s s1 hk => h k fun n hn => ?_
  simp only [ZS.probe, Prod.mk.injEq] at hk
  exact .className (Prod.ext hk.1 rfl) hn

theorem Tracks.perform (r : RawOp) : Tracks X.W S (perform X r) (perform (alter X f) r) := by
  intro s
  refine ⟨[.performed r], rfl, by simp, fun hs => ?_⟩
  have : ¬ S r := hs (.performed r) (by simp)
  simp only [ZS.perform, alter, hf r _ this]

omit hf in
theorem truthy_alter (v : Val) : truthy (alter X f).W v = truthy X.W v := by cases v <;> rfl

omit hf in
theorem typeOf_alter (v : Val) : typeOf (alter X f).W v = typeOf X.W v := by cases v <;> rfl

omit hf in
theorem alter_tid : (alter X f).tid = X.tid := rfl

omit hf in
theorem alter_impl : (alter X f).impl = X.impl := rfl

theorem Tracks.ask (p o : Val) : Tracks X.W S (askInteraction X p o) (askInteraction (alter X f) p o) := by
  refine .bind .get fun s => ?_
  simp only [truthy_alter, alter_tid]
  split
  · exact .throw _
  · refine .bind ?_ fun r => .pure _
    unfold ixCheckPermission
    split
    · refine .bind .get fun s => ?_
      exact .ite (.pure _) (.pure _)
    · exact .probe hf _ .policy

theorem Tracks.plainSetattr (st : Nat) (o : Val) (n : Name) :
    Tracks X.W S (plainSetattr X st o n) (plainSetattr (alter X f) st o n) := by
  unfold ZS.plainSetattr
  rw [alter_impl]
  split
  all_goals
    first
    | unfold plainSetattrPy
    | unfold plainSetattrC
    refine .bind .get fun s => ?_
    split
    · refine .ite (.pure _) (.bind (.ask hf _ _) fun b => ?_)
      exact .ite (.pure _) (.throw _)
    · exact .throw _

theorem Tracks.plainCheck {H H' : Val → Name → M A Bool} (g : Nat) (o : Val) (n : Name)
    (hH : n = "__iter__" → Tracks X.W S (H o n) (H' o n)) :
    Tracks X.W S (plainCheck X H g o n) (plainCheck (alter X f) H' g o n) := by
  unfold ZS.plainCheck
  rw [alter_impl]
  split
  · unfold plainCheckPy
    refine .bind .get fun s => ?_
    split
    · refine .ite (.pure _) (.bind (.ask hf _ _) fun b => ?_)
      exact .ite (.pure _) (.throw _)
    · refine .ite (.pure _) ?_
      split
      · exact .throw _
      · next h => exact .bind (hH (by simpa using h)) fun b => .ite (.throw _) (.pure _)
  · unfold plainCheckC
    refine .bind .get fun s => ?_
    split
    · refine .ite (.pure _) (.bind (.ask hf _ _) fun b => ?_)
      exact .ite (.pure _) (.throw _)
    · refine .ite (.ite (.pure _) ?_) (.throw _)
      split
      · next h => exact .bind (hH h) fun b => .ite (.throw _) (.pure _)
      · exact .throw _

theorem Tracks.chkCheck {H H' : Val → Name → M A Bool} (k : CheckKind) (c o : Val) (n : Name)
    (hH : n = "__iter__" → Tracks X.W S (H o n) (H' o n)) :
    Tracks X.W S (chkCheck X H k c o n) (chkCheck (alter X f) H' k c o n) := by
  induction c generalizing k with
  | combined id g st c2 ih =>
    cases k <;> simp only [ZS.chkCheck]
    · exact .combine (.plainCheck hf _ _ _ hH) (ih _)
    · exact .combine (.plainCheck hf _ _ _ hH) (ih _)
    · exact .combine (.plainSetattr hf _ _ _) (ih _)
  | checker id g st =>
    cases k <;> simp only [ZS.chkCheck]
    · exact .plainCheck hf _ _ _ hH
    · exact .plainCheck hf _ _ _ hH
    · exact .plainSetattr hf _ _ _
  | _ =>
    simp only [ZS.chkCheck]
    refine .bind (.probe hf _ (.foreignCheck ?_)) fun _ => .pure _
    cases k <;> simp [CheckKind.methodName]

omit hf in
theorem Tracks.newProxy (v c : Val) : Tracks X.W S (newProxy v c : M A Val) (newProxy v c) := by
  refine .ite (.throw _) (.bind .get fun s => .bind (.modify fun _ => rfl) fun _ => .pure _)

theorem Tracks.callFactory (g o : Val) : Tracks X.W S (callFactory X g o) (callFactory (alter X f) g o) := by
  unfold ZS.callFactory
  split
  · refine .bind .get fun s => ?_
    split <;> exact .pure _
  all_goals first | exact .throw _ | exact .probe hf _ .factory

theorem Tracks.selectLoop (o : Val) (k : Nat) (c : Val) : Tracks X.W S (selectLoop X o k c) (selectLoop (alter X f) o k c) := by
  induction k generalizing c with
  | zero => unfold ZS.selectLoop; exact .ite (.pure _) .diverge
  | succ k ih =>
    unfold ZS.selectLoop
    refine .ite (.pure _) (.bind (.callFactory hf _ _) fun c' => .ite (.pure _) (ih _))

omit hf in
theorem regEntry_alter (s : St A) (o : Val) : regEntry (alter X f).W s o = regEntry X.W s o := by
  unfold regEntry; rw [typeOf_alter]

theorem Tracks.selectChecker (o : Val) : Tracks X.W S (selectChecker X o) (selectChecker (alter X f) o) := by
  unfold ZS.selectChecker
  rw [alter_impl]
  split
  · refine .bind .get fun s => ?_
    simp only [regEntry_alter]
    exact .ite (.pure _) (.selectLoop hf _ _ _)
  · refine .bind .get fun s => ?_
    simp only [regEntry_alter]
    exact .ite (.pure _) (.ite (.pure _) (.selectLoop hf _ _ _))

omit hf in
theorem Tracks.orNone {x x' : M A Val} (h : Tracks X.W S x x') : Tracks X.W S (orNone x) (orNone x') := .tryCatch h fun _ => .pure _

omit hf in
theorem Tracks.newCombined (c1 c2 : Val) : Tracks X.W S (newCombined c1 c2 : M A Val) (newCombined c1 c2) := by
  unfold ZS.newCombined
  split
  · exact .bind .get fun s => .bind (.modify fun _ => rfl) fun _ => .pure _
  · exact .throw _

theorem Tracks.getSC (v : Val) : Tracks X.W S (getSC X v) (getSC (alter X f) v) := by
  induction v with
  | deco id cls inner ih =>
    unfold ZS.getSC
    refine .bind ?_ fun c => .bind (.selectChecker hf _) fun w => ?_
    · split
      · exact .bind .get fun s => .pure _
      · refine .bind (.orNone ih) fun c => ?_
        exact .ite (.selectChecker hf _) (.pure _)
    · exact .ite (.throw _) (.ite (.pure _) (.ite (.pure _) (.newCombined _ _)))
  | _ => unfold ZS.getSC; first | exact .throw _ | exact .probe hf _ .ownChecker

theorem Tracks.selectProxy (v : Val) :
    Tracks X.W S (do let c ← ZS.selectChecker X v; if c = .none then Pure.pure v else ZS.newProxy v c : M A Val)
      (do let c ← ZS.selectChecker (alter X f) v; if c = .none then Pure.pure v else ZS.newProxy v c : M A Val) :=
  .bind (.selectChecker hf _) fun _ => .ite (.pure _) (.newProxy _ _)

theorem Tracks.chkProxy (c v : Val) : Tracks X.W S (chkProxy X c v) (chkProxy (alter X f) c v) := by
  unfold ZS.chkProxy
  refine .ite ?_ (.probe hf _ .foreignProxy)
  rw [alter_impl]
  split
  · unfold proxyPy
    refine .ite (.pure _) (.bind (.orNone (.getSC hf _)) fun c => .ite (.selectProxy hf v) (.newProxy _ _))
  · unfold proxyC
    refine .ite (.pure _) ?_
    intro s
    have h := Tracks.getSC hf v
    rcases hg : ZS.getSC X v s with ⟨r, s1⟩
    cases r with
    | ok c =>
      simp only [hg]
      by_cases hc : c = .none
      · rw [if_pos hc]; exact Tracks.done h hg fun h => by rw [h]; simp [hc]
      · rw [if_neg hc]; exact Tracks.after h hg (.newProxy v c) fun h => by rw [h]; simp [hc]
    | err e =>
      simp only [hg]
      exact Tracks.after h hg (.selectProxy hf v) fun h => by rw [h]
    | diverge =>
      simp only [hg]
      exact Tracks.done h hg fun h => by rw [h]

omit hf in
theorem Tracks.hasattrOf {x x' : M A Val} (h : Tracks X.W S x x') : Tracks X.W S (hasattrOf X x) (hasattrOf (alter X f) x') := by
  intro s
  unfold ZS.hasattrOf
  rcases hx : x s with ⟨r, s1⟩
  cases r with
  | ok _ => exact Tracks.done h hx fun h => by rw [h]
  | err e =>
    simp only [alter_impl]
    cases hi : X.impl with
    | c => exact Tracks.done h hx fun h => by rw [h]
    | py =>
      simp only
      cases ha : e.isAttr with
      | true => exact Tracks.done h hx fun h => by rw [h]; simp [ha]
      | false => exact Tracks.done h hx fun h => by rw [h]; simp [ha]
  | diverge => exact Tracks.done h hx fun h => by rw [h]

theorem Tracks.getattroC {H H' : Val → Name → M A Bool} (w c : Val) (n : Name)
    (hH : n = "__iter__" → Tracks X.W S (H w n) (H' w n)) : Tracks X.W S (getattroC X H w c n) (getattroC (alter X f) H' w c n) :=
  .bind (.chkCheck hf _ _ _ _ hH) fun _ => .bind (.perform hf _) fun _ => .chkProxy hf _ _

theorem Tracks.getattrPy {H H' : Val → Name → M A Bool} (id : Nat) (w c : Val) (n : Name) (b : Bool)
    (hH : ∀ w, n = "__iter__" → Tracks X.W S (H w n) (H' w n)) :
    Tracks X.W S (getattrPy X H id w c n b) (getattrPy (alter X f) H' id w c n b) := by
  refine .tryCatch ?_ fun e => .bind .get fun s => .bind (.chkCheck hf _ _ _ _ (hH _)) fun _ => .throw _
  refine .ite (.throw _) (.bind .get fun s => .ite (.pure _) (.ite (.pure _) (.bind ?_ fun _ => .ite ?_ ?_)))
  · exact .ite (.pure _) (.chkCheck hf _ _ _ _ (hH _))
  · exact .bind (.perform hf _) fun _ => .chkProxy hf _ _
  · exact .bind .get fun s1 => .bind (.perform hf _) fun _ => .chkProxy hf _ _

theorem Tracks.hasattrD (k : Nat) (v : Val) : Tracks X.W S (hasattrD X k v "__iter__") (hasattrD (alter X f) k v "__iter__") := by
  induction k generalizing v with
  | zero => unfold ZS.hasattrD; exact .hasattrOf (.probe hf _ .iterable)
  | succ k ih =>
    unfold ZS.hasattrD
    split
    · next heq =>
      cases heq
      refine .hasattrOf ?_
      rw [alter_impl]
      split
      · exact .getattroC hf _ _ _ fun _ => ih _
      · exact .getattrPy hf _ _ _ _ _ fun _ _ => ih _
    · exact .hasattrOf (.probe hf _ .iterable)

theorem Tracks.guard (k : CheckKind) (c w : Val) (n : Name) : Tracks X.W S (guard X k c w n) (guard (alter X f) k c w n) :=
  .chkCheck hf _ _ _ _ fun h => by subst h; exact .hasattrD hf _ _

omit hf in
theorem Tracks.asLen (v : Val) : Tracks X.W S (asLen v : M A Val) (asLen v) := by
  unfold ZS.asLen; split
  · exact .ite (.pure _) (.throw _)
  · exact .throw _

omit hf in
theorem Tracks.asInt (v : Val) : Tracks X.W S (asInt v : M A Val) (asInt v) := by
  unfold ZS.asInt; split
  · exact .pure _
  · exact .throw _

omit hf in
theorem Tracks.asStr (v : Val) : Tracks X.W S (asStr X.W v) (asStr (alter X f).W v) := by
  unfold ZS.asStr; split
  · exact .pure _
  · exact .ite (.pure _) (.throw _)

omit hf in
theorem Tracks.asName (v : Val) : Tracks X.W S (asName v : M A String) (asName v) := by
  unfold ZS.asName; split
  · exact .pure _
  · exact .throw _

theorem Tracks.check1C (k : CheckKind) (w c : Val) (n : Name) (r : RawOp) :
    Tracks X.W S (check1C X k w c n r) (check1C (alter X f) k w c n r) :=
  .bind (.guard hf _ _ _ _) fun _ => .bind (.perform hf _) fun _ => .chkProxy hf _ _

theorem Tracks.defaultReprC (w : Val) : Tracks X.W S (defaultReprC X w) (defaultReprC (alter X f) w) := by
  unfold ZS.defaultReprC
  refine .classOf hf w fun k hk => .bind (.probe hf _ (hk _ (.inl rfl))) fun _ =>
    .bind (.asName _) fun _ => .bind ?_ fun r => ?_
  · exact .tryCatch (.bind (.probe hf _ (hk _ (.inr rfl))) fun _ => .pure _) fun _ => .pure _
  · cases r with
    | none => exact .pure _
    | some m => exact .bind (.asName _) fun _ => .pure _

theorem Tracks.strC (w c : Val) (n : Name) : Tracks X.W S (strC X w c n) (strC (alter X f) w c n) := by
  intro s
  have h := Tracks.guard hf .check c w n
  unfold ZS.strC
  rcases hg : ZS.guard X .check c w n s with ⟨r, s1⟩
  cases r with
  | ok _ =>
    refine Tracks.after h hg (.bind (.perform hf _) fun _ => Tracks.asStr (f := f) _) fun h => ?_
    rw [h]
  | err e => exact Tracks.after h hg (.defaultReprC hf w) fun h => by rw [h]
  | diverge => exact Tracks.done h hg fun h => by rw [h]

theorem Tracks.check2C (b : BinName) (l r : Val) : Tracks X.W S (check2C X b l r) (check2C (alter X f) b l r) := by
  unfold ZS.check2C
  split
  · exact .check1C hf _ _ _ _ _
  · exact .check1C hf _ _ _ _ _
  · exact .pure _

theorem Tracks.powC (x y m : Val) : Tracks X.W S (powC X x y m) (powC (alter X f) x y m) := by
  unfold ZS.powC
  split
  · exact .check1C hf _ _ _ _ _
  · exact .check1C hf _ _ _ _ _
  · exact .check1C hf _ _ _ _ _
  · exact .pure _

theorem Tracks.popC (id : Nat) (w c : Val) (op : POp) : Tracks X.W S (popC X id w c op) (popC (alter X f) id w c op) := by
  cases op with
  | getattr n b => exact .getattroC hf _ _ _ fun h => by subst h; exact .hasattrD hf _ _
  | setattr n v => exact .bind (.guard hf _ _ _ _) fun _ => .bind (.perform hf _) fun _ => .pure _
  | delattr n => exact .bind (.guard hf _ _ _ _) fun _ => .bind (.perform hf _) fun _ => .pure _
  | unop u => cases u <;> first | exact .throw _ | exact .check1C hf _ _ _ _ _
  | call a => exact .check1C hf _ _ _ _ _
  | getitem k => exact .check1C hf _ _ _ _ _
  | setitem k v => exact .bind (.guard hf _ _ _ _) fun _ => .bind (.perform hf _) fun _ => .pure _
  | delitem k => exact .bind (.guard hf _ _ _ _) fun _ => .bind (.perform hf _) fun _ => .pure _
  | contains v =>
    refine .bind (.guard hf _ _ _ _) fun _ => .bind (.perform hf _) fun _ => ?_
    simp only [truthy_alter]
    exact .pure _
  | len => exact .bind (.guard hf _ _ _ _) fun _ => .bind (.perform hf _) fun _ => .asLen _
  | iter => exact .check1C hf _ _ _ _ _
  | next => exact .check1C hf _ _ _ _ _
  | binL b o => exact .check2C hf _ _ _
  | binR b o => exact .check2C hf _ _ _
  | pow y m => exact .powC hf _ _ _
  | rpow x m => exact .powC hf _ _ _
  | pow3 x y => exact .powC hf _ _ _
  | inplace b o =>
    exact .bind (.guard hf _ _ _ _) fun _ => .bind (.perform hf _) fun _ => .ite (.pure _) (.chkProxy hf _ _)
  | compare b o =>
    refine Tracks.bind (Tracks.perform hf _) fun v => ?_
    split
    · exact .pure _
    · exact .chkProxy hf _ _
  | hash => exact .bind (.perform hf _) fun _ => .asInt _
  | bool =>
    refine Tracks.bind (Tracks.perform hf _) fun _ => ?_
    simp only [truthy_alter]
    exact .pure _
  | lengthHint => exact .tryCatch (.perform hf _) fun _ => .pure _
  | str => exact .strC hf _ _ _
  | repr => exact .strC hf _ _ _

theorem Tracks.checkNamePy (id : Nat) (w c : Val) (n : Name) (r : Val → RawOp) :
    Tracks X.W S (checkNamePy X id w c n r) (checkNamePy (alter X f) id w c n r) :=
  .bind .get fun _ => .bind (.guard hf _ _ _ _) fun _ => .bind .get fun _ => .bind (.perform hf _) fun _ => .chkProxy hf _ _

theorem Tracks.checkNameNonePy (id : Nat) (w c : Val) (n : Name) (r : Val → RawOp) :
    Tracks X.W S (checkNameNonePy X id w c n r) (checkNameNonePy (alter X f) id w c n r) :=
  .bind .get fun _ => .bind (.guard hf _ _ _ _) fun _ => .bind .get fun _ => .bind (.perform hf _) fun _ =>
    .bind (.chkProxy hf _ _) fun _ => .pure _

theorem Tracks.defaultReprPy (w : Val) : Tracks X.W S (defaultReprPy X w) (defaultReprPy (alter X f) w) :=
  .classOf hf w fun _ h1 => .bind (.probe hf _ (h1 _ (.inr rfl))) fun _ =>
    .classOf hf w fun _ h2 => .bind (.probe hf _ (h2 _ (.inl rfl))) fun _ => .bind (.asName _) fun _ => .bind (.asName _) fun _ => .pure _

theorem Tracks.strPy (id : Nat) (w c : Val) (n : Name) : Tracks X.W S (strPy X id w c n) (strPy (alter X f) id w c n) :=
  .bind (.tryCatch (.checkNamePy hf _ _ _ _ _) fun _ => .bind .get fun _ => .defaultReprPy hf _) fun _ => .asStr _

theorem Tracks.binPy (b : BinName) (l r : Val) : Tracks X.W S (binPy X b l r) (binPy (alter X f) b l r) := by
  unfold ZS.binPy
  split
  · exact .checkNamePy hf _ _ _ _ _
  · exact .checkNamePy hf _ _ _ _ _
  · exact .pure _

theorem Tracks.powPy (x y m : Val) : Tracks X.W S (powPy X x y m) (powPy (alter X f) x y m) := by
  unfold ZS.powPy
  split
  · exact .checkNamePy hf _ _ _ _ _
  · exact .checkNamePy hf _ _ _ _ _
  · exact .pure _

theorem Tracks.lengthHintPy (w : Val) : Tracks X.W S (lengthHintPy X w) (lengthHintPy (alter X f) w) := by
  unfold ZS.lengthHintPy
  refine .bind (.tryCatch (.bind (.perform hf _) fun _ => .pure _) fun _ => .pure _) fun h => ?_
  cases h with
  | none => exact .pure _
  | some h => exact .perform hf _

theorem Tracks.inplacePy (id : Nat) (w c : Val) (b : InName) (o : Val) :
    Tracks X.W S (inplacePy X id w c b o) (inplacePy (alter X f) id w c b o) := by
  refine .bind .get fun _ => .bind (.guard hf _ _ _ _) fun _ => .bind (.tryCatch (.perform hf _) fun _ => .pure _) fun m => ?_
  refine .ite ?_ ?_
  · exact .bind (.perform hf _) fun _ => .bind (.modify fun s => rfl) fun _ => .pure _
  · exact .bind (.perform hf _) fun _ => .bind (.perform hf _) fun _ => .newProxy _ _

theorem Tracks.popPy (id : Nat) (w c : Val) (op : POp) : Tracks X.W S (popPy X id w c op) (popPy (alter X f) id w c op) := by
  cases op with
  | getattr n b => exact .getattrPy hf _ _ _ _ _ fun _ h => by subst h; exact .hasattrD hf _ _
  | setattr n v =>
    refine .ite (.bind (.modify fun s => rfl) fun _ => .pure _) (.ite (.bind (.modify fun s => rfl) fun _ => .pure _) ?_)
    exact .bind .get fun _ => .bind (.guard hf _ _ _ _) fun _ => .bind (.perform hf _) fun _ => .pure _
  | delattr n =>
    exact .ite (.throw _) (.bind .get fun _ => .bind (.guard hf _ _ _ _) fun _ => .bind (.perform hf _) fun _ => .pure _)
  | unop u => exact .checkNamePy hf _ _ _ _ _
  | call a => exact .checkNamePy hf _ _ _ _ _
  | getitem k => exact .checkNamePy hf _ _ _ _ _
  | setitem k v => exact .checkNameNonePy hf _ _ _ _ _
  | delitem k => exact .checkNameNonePy hf _ _ _ _ _
  | contains v =>
    refine .bind .get fun _ => .bind (.guard hf _ _ _ _) fun _ => .bind .get fun _ => .bind (.perform hf _) fun _ => ?_
    simp only [truthy_alter]
    exact .bind (.chkProxy hf _ _) fun _ => .pure _
  | len =>
    exact .bind .get fun _ => .bind (.guard hf _ _ _ _) fun _ => .bind .get fun _ => .bind (.perform hf _) fun _ => .asLen _
  | iter => exact .checkNamePy hf _ _ _ _ _
  | next => exact .checkNamePy hf _ _ _ _ _
  | binL b o => exact .binPy hf _ _ _
  | binR b o => exact .binPy hf _ _ _
  | pow y m => exact .powPy hf _ _ _
  | rpow x m => exact .powPy hf _ _ _
  | pow3 x y => exact .powPy hf _ _ _
  | inplace b o => exact .inplacePy hf _ _ _ _ _
  | compare b o => exact .bind .get fun _ => .perform hf _
  | hash => exact .bind .get fun _ => .bind (.perform hf _) fun _ => .asInt _
  | bool =>
    refine .bind .get fun _ => .bind (.perform hf _) fun _ => ?_
    simp only [truthy_alter]
    exact .pure _
  | lengthHint => exact .bind .get fun _ => .lengthHintPy hf _
  | str => exact .strPy hf _ _ _ _
  | repr => exact .strPy hf _ _ _ _

theorem Tracks.pop (p : Val) (op : POp) : Tracks X.W S (pop X p op) (pop (alter X f) p op) := by
  unfold ZS.pop
  split
  · rw [alter_impl]
    split
    · exact .popC hf _ _ _ _
    · exact .popPy hf _ _ _ _
  · exact .throw _

end

end ZS
