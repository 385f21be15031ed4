import Verif.Props.Access
import Verif.Props.Deco

/-!
# The record of events is a ghost

In a world that does not look at the record of events (which does not exist in reality) nothing
the package does depends on it.  Used for the predictions of `canAccess` about `__iter__`.
-/

namespace ZS.Props
open Spec
variable {A : Type} {α β : Type}

/-- The computation does the same whatever was recorded before. -/
def Same (x : M A α) : Prop := ∀ s s', Ghost s s' → (x s).1 = (x s').1 ∧ Ghost (x s).2 (x s').2

theorem Same.sim {x : M A α} (h : Same x) (o o' : Val) : Sim o o' x x := by
  intro s s' hg
  obtain ⟨h1, h2⟩ := h s s' hg
  refine ⟨?_, h2⟩
  rw [← h1]
  cases (x s).1 with
  | ok => exact .ok
  | err => exact .err (.inl rfl)
  | diverge => exact .diverge

theorem Same.pure (a : α) : Same (pure a : M A α) := fun _ _ h => ⟨rfl, h⟩
theorem Same.throw (e : Exn) : Same (M.throw e : M A α) := fun _ _ h => ⟨rfl, h⟩
theorem Same.diverge : Same (M.diverge : M A α) := fun _ _ h => ⟨rfl, h⟩

theorem Same.bind {x : M A α} {f : α → M A β} (hx : Same x) (hf : ∀ a, Same (f a)) : Same (x >>= f) := by
  intro s s' hg
  obtain ⟨h1, h2⟩ := hx s s' hg
  rw [run_bind, run_bind]
  rcases hxs : x s with ⟨r, s1⟩
  rcases hys : x s' with ⟨r', s1'⟩
  rw [hxs, hys] at h1 h2
  simp only at h1; subst h1
  cases r with
  | ok a => exact hf a _ _ h2
  | err h => exact ⟨rfl, h2⟩
  | diverge => exact ⟨rfl, h2⟩

/-- Reading the state is allowed if only other things than the record are used. -/
theorem Same.get {f : St A → M A α} (h : ∀ s, Same (f s)) (hf : ∀ s tr, f { s with trace := tr } = f s) :
    Same (M.get >>= f) := by
  intro s s' hg
  obtain ⟨tr, rfl⟩ := ghost_eq hg
  have : (M.get >>= f) { s with trace := tr } = f s { s with trace := tr } := by rw [← hf s tr]; rfl
  rw [this]
  exact h s s _ hg

theorem Same.modify {f : St A → St A} (h : ∀ s tr, Ghost (f s) (f { s with trace := tr })) : Same (M.modify f) := by
  intro s s' hg
  obtain ⟨tr, rfl⟩ := ghost_eq hg
  exact ⟨rfl, h s tr⟩

theorem Same.ite {c : Prop} [Decidable c] {x y : M A α} (hx : Same x) (hy : Same y) : Same (if c then x else y) := by
  split <;> assumption

theorem Same.tryCatch {x : M A α} {p : Exn → Bool} {f : Exn → M A α} (hx : Same x) (hf : ∀ e, Same (f e)) :
    Same (M.tryCatch x p f) := by
  intro s s' hg
  obtain ⟨h1, h2⟩ := hx s s' hg
  rw [run_tryCatch, run_tryCatch]
  rcases hxs : x s with ⟨r, s1⟩
  rcases hys : x s' with ⟨r', s1'⟩
  rw [hxs, hys] at h1 h2
  simp only at h1; subst h1
  cases r with
  | ok a => exact ⟨rfl, h2⟩
  | diverge => exact ⟨rfl, h2⟩
  | err e =>
    simp only
    split
    · exact hf e _ _ h2
    · exact ⟨rfl, h2⟩

theorem Same.probe (X : Ctx A) (hB : Blind X.W) (r : RawOp) : Same (probe X r) := by
  intro s s' hg
  obtain ⟨tr, rfl⟩ := ghost_eq hg
  obtain ⟨h1, h2⟩ := hB r { s with trace := s.trace ++ [.probed r] } { s with trace := tr ++ [.probed r] } rfl
  obtain ⟨tr', h2⟩ := ghost_eq h2
  unfold ZS.probe
  simp only [← h1, h2]
  exact ⟨trivial, rfl⟩

theorem Same.perform (X : Ctx A) (hB : Blind X.W) (r : RawOp) : Same (perform X r) := by
  intro s s' hg
  obtain ⟨tr, rfl⟩ := ghost_eq hg
  obtain ⟨h1, h2⟩ := hB r { s with trace := s.trace ++ [.performed r] } { s with trace := tr ++ [.performed r] } rfl
  obtain ⟨tr', h2⟩ := ghost_eq h2
  unfold ZS.perform
  simp only [← h1, h2]
  exact ⟨trivial, rfl⟩

theorem Same.newProxy (v c : Val) : Same (newProxy v c : M A Val) := by
  unfold ZS.newProxy
  refine .ite (.throw _) (.get (fun s => .bind (.modify fun _ _ => rfl) fun _ => .pure _) fun _ _ => rfl)

theorem Same.newCombined (c d : Val) : Same (newCombined c d : M A Val) := by
  unfold ZS.newCombined
  split
  · exact .get (fun s => .bind (.modify fun _ _ => rfl) fun _ => .pure _) fun _ _ => rfl
  · exact .throw _

section
variable (X : Ctx A) (hB : Blind X.W)
include hB

theorem Same.ask (p o : Val) : Same (askInteraction X p o) := by
  unfold askInteraction
  refine .get (fun s => ?_) fun _ _ => rfl
  split
  · exact .throw _
  · refine .bind ?_ fun _ => .pure _
    unfold ixCheckPermission
    split
    · exact .get (fun s => .ite (.pure _) (.pure _)) fun _ _ => rfl
    · exact .probe X hB _

theorem Same.callFactory (f o : Val) : Same (callFactory X f o) := by
  unfold ZS.callFactory
  split
  · refine .get (fun s => ?_) fun _ _ => rfl
    split <;> exact .pure _
  all_goals first | exact .throw _ | exact .probe X hB _

theorem Same.selectLoop (o : Val) (k : Nat) (c : Val) : Same (selectLoop X o k c) := by
  induction k generalizing c with
  | zero =>
    unfold ZS.selectLoop
    exact .ite (.pure _) .diverge
  | succ k ih =>
    unfold ZS.selectLoop
    exact .ite (.pure _) (.bind (.callFactory X hB _ _) fun c' => .ite (.pure _) (ih c'))

theorem Same.select (o : Val) : Same (selectChecker X o) := by
  unfold selectChecker
  split
  · exact .get (fun s => .ite (.pure _) (.selectLoop X hB _ _ _)) fun _ _ => rfl
  · exact .get (fun s => .ite (.pure _) (.ite (.pure _) (.selectLoop X hB _ _ _))) fun _ _ => rfl

omit hB in
theorem Same.orNone {x : M A Val} (h : Same x) : Same (orNone x) := .tryCatch h fun _ => .pure _

theorem Same.getSC (v : Val) : Same (getSC X v) := by
  induction v with
  | deco id cls inner ih =>
    have hd : ∀ c, Same (decoCombine X (.deco id cls inner) c) := fun c =>
      .bind (.select X hB _) fun w => .ite (.throw _) (.ite (.pure _) (.ite (.pure _) (.newCombined _ _)))
    by_cases hp : IsProxy inner
    · obtain ⟨a, b, c, rfl⟩ := hp
      refine .bind (.get (fun s => .pure _) fun s tr => ?_) hd
      rfl
    · rw [getSC_deco X id cls inner hp]
      exact .bind (.bind (.orNone ih) fun c => .ite (.select X hB _) (.pure _)) hd
  | obj => exact .probe X hB _
  | type => exact .probe X hB _
  | module => exact .probe X hB _
  | fn => exact .probe X hB _
  | _ => exact .throw _

theorem Same.chkProxy (c v : Val) : Same (chkProxy X c v) := by
  unfold ZS.chkProxy
  refine .ite ?_ (.probe X hB _)
  split
  · unfold proxyPy
    exact .ite (.pure _) (.bind (.orNone (.getSC X hB v)) fun c =>
      .ite (.bind (.select X hB v) fun c => .ite (.pure _) (.newProxy _ _)) (.newProxy _ _))
  · unfold proxyC
    refine .ite (.pure _) ?_
    have hs : Same (do
        let c ← selectChecker X v
        if c = .none then Pure.pure v else ZS.newProxy v c : M A Val) :=
      .bind (.select X hB v) fun c => .ite (.pure _) (.newProxy _ _)
    intro s s' hg
    obtain ⟨h1, h2⟩ := Same.getSC X hB v s s' hg
    rcases hxs : ZS.getSC X v s with ⟨r, s1⟩
    rcases hys : ZS.getSC X v s' with ⟨r', s1'⟩
    rw [hxs, hys] at h1 h2
    simp only at h1 h2; subst h1
    simp only [hxs, hys]
    cases r with
    | ok c =>
      by_cases hc : c = .none
      · simp only [hc, if_true]; exact ⟨trivial, h2⟩
      · simp only [hc, if_false]; exact Same.newProxy v c _ _ h2
    | err e => exact hs _ _ h2
    | diverge => exact ⟨rfl, h2⟩

omit hB in
theorem Same.combine {x y : M A Unit} (hx : Same x) (hy : Same y) : Same (combine x y) := by
  intro s s' hg
  obtain ⟨h1, h2⟩ := hx s s' hg
  unfold ZS.combine
  rcases hxs : x s with ⟨r, s1⟩
  rcases hys : x s' with ⟨r', s1'⟩
  rw [hxs, hys] at h1 h2
  simp only at h1; subst h1
  cases r with
  | ok a => exact ⟨rfl, h2⟩
  | diverge => exact ⟨rfl, h2⟩
  | err e =>
    simp only
    split
    · exact hy _ _ h2
    · split
      · exact Same.tryCatch hy (fun _ => .throw _) _ _ h2
      · exact ⟨rfl, h2⟩

variable (H : Val → Name → M A Bool) (hH : ∀ v n, Same (H v n))
include hH

theorem Same.plainCheck (g : Nat) (o : Val) (n : Name) : Same (plainCheck X H g o n) := by
  have hask : ∀ p, Same (if p = publicV then Pure.pure () else do
      let b ← askInteraction X p o
      if b then Pure.pure () else M.throw (.unauthorized o n p) : M A Unit) := fun p =>
    .ite (.pure _) (.bind (.ask X hB p o) fun _ => .ite (.pure _) (.throw _))
  have hh : Same (do
      let h ← H o n
      if h then M.throw (.forbidden n o) else Pure.pure () : M A Unit) := .bind (hH o n) fun _ => .ite (.throw _) (.pure _)
  unfold ZS.plainCheck
  split
  · refine .get (fun s => ?_) fun _ _ => rfl
    split
    · exact hask _
    · exact .ite (.pure _) (.ite (.throw _) hh)
  · refine .get (fun s => ?_) fun _ _ => rfl
    split
    · exact hask _
    · exact .ite (.ite (.pure _) (.ite hh (.throw _))) (.throw _)

omit hH in
theorem Same.plainSetattr (st : Nat) (o : Val) (n : Name) : Same (plainSetattr X st o n) := by
  have hask : ∀ p, Same (if p = publicV then Pure.pure () else do
      let b ← askInteraction X p o
      if b then Pure.pure () else M.throw (.unauthorized o n p) : M A Unit) := fun p =>
    .ite (.pure _) (.bind (.ask X hB p o) fun _ => .ite (.pure _) (.throw _))
  unfold ZS.plainSetattr
  split
  all_goals
    refine .get (fun s => ?_) fun _ _ => rfl
    split
    · exact hask _
    · exact .throw _

theorem Same.chkCheck (k : CheckKind) (c o : Val) (n : Name) : Same (chkCheck X H k c o n) := by
  induction c generalizing k with
  | checker id g st =>
    cases k
    · exact .plainCheck X hB H hH g o n
    · exact .plainCheck X hB H hH g o n
    · exact .plainSetattr X hB st o n
  | combined id g st c2 ih =>
    cases k
    · exact .combine (.plainCheck X hB H hH g o n) (ih _)
    · exact .combine (.plainCheck X hB H hH g o n) (ih _)
    · exact .combine (.plainSetattr X hB st o n) (ih _)
  | _ => exact .bind (.probe X hB _) fun _ => .pure _

theorem Same.getattroC (w c : Val) (n : Name) : Same (getattroC X H w c n) :=
  .bind (.chkCheck X hB H hH _ _ _ _) fun _ => .bind (.perform X hB _) fun _ => .chkProxy X hB _ _

theorem Same.getattrPy (id : Nat) (w0 c0 : Val) (n : Name) (inside : Bool) : Same (getattrPy X H id w0 c0 n inside) := by
  unfold ZS.getattrPy
  refine .tryCatch ?_ fun _ => ?_
  · unfold getattributePy
    refine .ite (.throw _) (.get (fun s => ?_) fun s tr => rfl)
    refine .ite (.pure _) (.ite (.pure _) (.bind ?_ fun _ => .ite ?_ ?_))
    · exact .ite (.pure _) (.chkCheck X hB H hH _ _ _ _)
    · exact .bind (.perform X hB _) fun _ => .chkProxy X hB _ _
    · exact .get (fun s1 => .bind (.perform X hB _) fun _ => .chkProxy X hB _ _) fun s tr => rfl
  · exact .get (fun s => .bind (.chkCheck X hB H hH _ _ _ _) fun _ => .throw _) fun s tr => rfl

end

theorem Same.hasattrOf (X : Ctx A) {x : M A Val} (h : Same x) : Same (hasattrOf X x) := by
  intro s s' hg
  obtain ⟨h1, h2⟩ := h s s' hg
  unfold ZS.hasattrOf
  rcases hxs : x s with ⟨r, s1⟩
  rcases hys : x s' with ⟨r', s1'⟩
  rw [hxs, hys] at h1 h2
  simp only at h1; subst h1
  cases r with
  | ok a => exact ⟨rfl, h2⟩
  | diverge => exact ⟨rfl, h2⟩
  | err e =>
    simp only
    cases X.impl
    · simp only; split <;> exact ⟨rfl, h2⟩
    · exact ⟨rfl, h2⟩

theorem Same.hasattrD (X : Ctx A) (hB : Blind X.W) (k : Nat) (v : Val) (n : Name) : Same (hasattrD X k v n) := by
  induction k generalizing v n with
  | zero => unfold ZS.hasattrD; exact .hasattrOf X (.probe X hB _)
  | succ k ih =>
    cases v with
    | proxy id w c =>
      unfold ZS.hasattrD
      refine .hasattrOf X ?_
      split
      · exact .getattroC X hB _ ih w c n
      · exact .getattrPy X hB _ ih id w c n false
    | _ => unfold ZS.hasattrD; exact .hasattrOf X (.probe X hB _)

/-! ## C22 for `__iter__` -/

theorem setattr_judge (X : Ctx A) (H H' : Val → Name → M A Bool) (c o : Val) (n : Name) (hc : Ordinary c) :
    chkCheck X H .setattr c o n = chkCheck X H' .setattr c o n := by
  induction c with
  | checker => rfl
  | combined id g st c2 ih => simp only [chkCheck, ih hc]
  | _ => exact absurd hc id

/-- **C22** For every name, `__iter__` included: `canAccess(p, n)` answers as the check made by reading
`n` through `p` would if that check, where it wants to know whether the object has an undeclared
`__iter__`, asked the proxy instead of the object.  `canWrite` for every name alike. -/
theorem C22_every_name (X : Ctx A) (p w c : Val) (n : Name) (s : St A)
    (hp : current X.impl s p = some (w, c)) (hc : Ordinary c) (hI : Indifferent X.W p w) (hB : Blind X.W) :
    ((canAccess X p n s).1 = .ok true ↔ (chkCheck X (fun _ => hasattrX X p) .getattr c w n s).1 = .ok ())
    ∧ ((canAccess X p n s).1 = .ok false ↔
        ∃ e, (chkCheck X (fun _ => hasattrX X p) .getattr c w n s).1 = .err e ∧ IsUnauth e)
    ∧ ((∃ e, (canAccess X p n s).1 = .err e ∧ IsForbid e) ↔
        ∃ e, (chkCheck X (fun _ => hasattrX X p) .getattr c w n s).1 = .err e ∧ IsForbid e)
    ∧ ((canWrite X p n s).1 = .ok true ↔ (chkCheck X (hasattrX X) .setattr c w n s).1 = .ok ()) := by
  have h := predicts X p w c n s hp hc hI (fun _ => hasattrX X p) fun _ => (Same.hasattrD X hB X.depth p n).sim p w
  refine ⟨h.1, h.2.1, h.2.2.1, ?_⟩
  rw [h.2.2.2, setattr_judge X _ (hasattrX X) c w n hc]

/-- Asking for `__iter__` finds one, now and again (the record of events aside), without effects. -/
def Iterable (W : World A) (w : Val) (s : St A) : Prop :=
  ∀ s', Ghost s s' → ∃ v s'', W.apply (.getattr w "__iter__") s' = (.ok v, s'') ∧ Ghost s s''

theorem ghost_trans {s s' s'' : St A} (h : Ghost s s') (h' : Ghost s' s'') : Ghost s s'' := Eq.trans h h'

theorem hasattrD_raw (X : Ctx A) (k : Nat) (w : Val) (hw : ¬ IsProxy w) (n : Name) :
    hasattrD X k w n = hasattrOf X (probe X (.getattr w n)) := by
  cases k with
  | zero => unfold hasattrD; rfl
  | succ k =>
    cases w with
    | proxy => exact absurd ⟨_, _, _, rfl⟩ hw
    | _ => rfl

theorem iterable_has (X : Ctx A) (k : Nat) (w : Val) (hw : ¬ IsProxy w) (s s' : St A) (hi : Iterable X.W w s) (hg : Ghost s s') :
    ∃ s'', hasattrD X k w "__iter__" s' = (.ok true, s'') ∧ Ghost s s'' := by
  rw [hasattrD_raw X k w hw]
  obtain ⟨v, s2, h1, h2⟩ := hi { s' with trace := s'.trace ++ [.probed (.getattr w "__iter__")] } hg
  refine ⟨{ s2 with trace := s'.trace ++ [.probed (.getattr w "__iter__")] }, ?_, h2⟩
  unfold hasattrOf probe
  simp only [h1]

/-- The check of an undeclared `__iter__` turns on whether the object has it. -/
theorem undeclared_iter (X : Ctx A) (H : Val → Name → M A Bool) (i g st : Nat) (o : Val) (s s' : St A) (hg : Ghost s s')
    (hu : (s.dicts g).get? "__iter__" = none) (ha : "__iter__" ∉ s.avail) :
    chkCheck X H .getattr (.checker i g st) o "__iter__" s' = (do
      let h ← H o "__iter__"
      if h then M.throw (.forbidden "__iter__" o) else Pure.pure () : M A Unit) s' := by
  obtain ⟨tr, rfl⟩ := ghost_eq hg
  unfold chkCheck
  simp only [plainCheck]
  cases X.impl
  · show plainCheckPy X H g o "__iter__" _ = _
    unfold plainCheckPy
    rw [run_bind, run_get]
    have hl : lookupPy (s.dicts g) "__iter__" = none := by unfold lookupPy; rw [hu]
    simp only [hl]
    rw [if_neg ha, if_neg (by simp)]
  · show plainCheckC X H g o "__iter__" _ = _
    unfold plainCheckC
    rw [run_bind, run_get]
    simp only [hu]
    rw [if_pos (by decide), if_neg ha, if_pos trivial]

/-- **C22** Where the checker (an ordinary, not combined one) does not declare `__iter__` and the object has
it, the prediction is always wrong: `canAccess` says True, the check made by real access raises
ForbiddenAttribute.  In both implementations; the proxy itself hides the attribute from the check. -/
theorem C22_iter_undeclared (X : Ctx A) (hd : 0 < X.depth) (p w : Val) (i g st : Nat) (s : St A)
    (hp : current X.impl s p = some (w, .checker i g st)) (hw : ¬ IsProxy w)
    (hu : (s.dicts g).get? "__iter__" = none) (ha : "__iter__" ∉ s.avail) (hi : Iterable X.W w s) :
    (canAccess X p "__iter__" s).1 = .ok true
    ∧ (chkCheck X (hasattrX X) .getattr (.checker i g st) w "__iter__" s).1 = .err (.forbidden "__iter__" w) := by
  have refused : ∀ k s', Ghost s s' → ∃ s'', chkCheck X (hasattrD X k) .getattr (.checker i g st) w "__iter__" s'
      = (.err (.forbidden "__iter__" w), s'') ∧ Ghost s s'' := by
    intro k s' hg
    obtain ⟨s'', h1, h2⟩ := iterable_has X k w hw s s' hi hg
    refine ⟨s'', ?_, h2⟩
    rw [undeclared_iter X _ i g st w s s' hg hu ha, bind_ok h1]
    rfl
  obtain ⟨k, hk⟩ : ∃ k, X.depth = k + 1 := ⟨X.depth - 1, by omega⟩
  obtain ⟨id, w0, c0, rfl⟩ : ∃ id w0 c0, p = .proxy id w0 c0 := by
    cases p with
    | proxy a b c => exact ⟨_, _, _, rfl⟩
    | _ => simp [current] at hp
  have hidden : ∃ s'', hasattrX X (.proxy id w0 c0) "__iter__" s = (.ok false, s'') := by
    unfold hasattrX
    rw [hk]
    unfold hasattrD hasattrOf
    obtain ⟨s1, h1, h1'⟩ := refused k s rfl
    cases hX : X.impl with
    | c =>
      rw [hX] at hp
      cases hp
      simp only
      have : getattroC X (hasattrD X k) w (.checker i g st) "__iter__" s = (.err (.forbidden "__iter__" w), s1) := bind_err h1
      rw [this]
      exact ⟨_, rfl⟩
    | py =>
      obtain ⟨s2, h2, h2'⟩ := refused k s1 h1'
      have hcur : proxyWrapped X s id w0 = w ∧ proxyChecker X s id c0 = .checker i g st := by
        simpa [current, hX, proxyWrapped, proxyChecker] using hp
      have hcur1 : proxyWrapped X s1 id w0 = w ∧ proxyChecker X s1 id c0 = .checker i g st := by
        obtain ⟨tr, rfl⟩ := ghost_eq h1'
        exact hcur
      have a1 : getattributePy X (hasattrD X k) id w0 c0 "__iter__" false s = (.err (.forbidden "__iter__" w), s1) := by
        unfold getattributePy
        rw [if_neg (by decide), run_bind, run_get]
        simp only [hcur.1, hcur.2]
        rw [if_neg (by decide), if_neg (by decide)]
        refine bind_err ?_
        unfold getattributeCheckPy
        rw [if_neg (by decide)]
        exact h1
      have a2 : getattrHookPy X (hasattrD X k) id w0 c0 "__iter__" s1 = (.err (.forbidden "__iter__" w), s2) := by
        unfold getattrHookPy
        rw [run_bind, run_get]
        simp only [hcur1.1, hcur1.2]
        exact bind_err h2
      have a3 : getattrPy X (hasattrD X k) id w0 c0 "__iter__" false s = (.err (.forbidden "__iter__" w), s2) := by
        unfold getattrPy
        rw [run_tryCatch, a1]
        exact a2
      simp only
      rw [a3]
      exact ⟨_, rfl⟩
  obtain ⟨s3, hidden⟩ := hidden
  constructor
  · have hf : proxyFactory X (.proxy id w0 c0) .none s = (.ok (.proxy id w0 c0), s) :=
      (C09_factory_spec X _ s _).mpr (.already ⟨_, _, _, rfl⟩)
    have := ((C21_canAccess X (.proxy id w0 c0) "__iter__" s).1 _ s w _ hf hp (.ok true, s3)).mpr (.yes (by
      rw [undeclared_iter X _ i g st _ s s rfl hu ha, bind_ok hidden]
      rfl))
    rw [this]
  · obtain ⟨s1, h1, -⟩ := refused X.depth s rfl
    unfold hasattrX
    rw [h1]

/-- The example world looks at nothing recorded, and object 2 is iterable in it. -/
example : Blind Ex.W ∧ ∀ s, Iterable Ex.W (.obj 2) s := by
  refine ⟨?_, fun s s' hg => ⟨_, _, rfl, hg⟩⟩
  intro r s s' hg
  have h : ∃ x, ∀ s, Ex.W.apply r s = (x, s) := by
    simp only [Ex.W]
    split <;> exact ⟨_, fun _ => rfl⟩
  obtain ⟨x, h⟩ := h
  rw [h, h]
  exact ⟨rfl, hg⟩

/-- The hypotheses of `C22_iter_undeclared` in the example world. -/
example : ∀ impl, 0 < (Ex.X impl).depth ∧ current impl (Ex.s1 none) (.proxy 70 (.obj 2) Ex.c1) = some (.obj 2, .checker 60 30 31)
    ∧ ((Ex.s1 none).dicts 30).get? "__iter__" = none ∧ "__iter__" ∉ (Ex.s1 none).avail := by
  intro impl
  cases impl <;> exact ⟨by decide, by decide, by decide, by decide⟩

end ZS.Props
