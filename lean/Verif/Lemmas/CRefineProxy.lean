import Verif.Lemmas.CRefineChecker
import Verif.Spec.CSlots

/-!
# The functions of `_proxy.c` compute what the models say
-/

namespace ZS.CM
variable {A : Type} {E : Env} {I : Interp A}

theorem m_assoc {α β γ : Type} (x : M A α) (k : α → M A β) (j : β → M A γ) (s : St A) :
    ((x >>= k) >>= j) s = (x >>= fun a => k a >>= j) s := by
  show M.bind (M.bind x k) j s = M.bind x (fun a => M.bind (k a) j) s
  unfold M.bind
  rcases x s with ⟨_ | _ | _, _⟩ <;> rfl

theorem m_pure_right {α : Type} (x : M A α) (s : St A) : (x >>= pure) s = x s := by
  show M.bind x pure s = x s
  unfold M.bind
  rcases h : x s with ⟨_ | _ | _, _⟩ <;> rfl

/-! ## Checks -/

theorem wp_method (F : Fits E I) {m : Mem} {s : St A} {c o n : Nat} {meth : String} {k : CheckKind} (hk : kindOf meth = some k)
    (hm : meth ≠ "checkPermission") :
    Wp E I (do
      let r ← callObj E .api .callMethod [c, E.const meth, o, n]
      match r with
      | .none => pure (-1)
      | some r => do
        decref E r
        pure 0) m s (Ends (chkCheck I.X (hasattrX I.X) k (I.val c) (I.val o) (I.name n)) s (CheckResult E I)) := by
  have hx : ∀ r s', Explained E I s ⟨.callMethod, [c, E.const meth, o, n], m.raised, r⟩ s' →
      Runs (chkCheck I.X (hasattrX I.X) k (I.val c) (I.val o) (I.name n)) s s' (DoneAnswer I r) := by
    intro r s' h
    simp only [Explained, F.name, hk, if_neg hm] at h
    exact h
  refine .bind (.callObj (fun r m1 s1 h1 h2 h3 h4 => ?_) fun r m1 s1 h1 h2 h3 h4 => ?_)
  · obtain ⟨res, h5, h6⟩ := (hx r s1 h1).elim
    refine .bind (.decref fun m2 h7 h8 => .pure ⟨res, h5, ?_⟩)
    cases res with
    | ok u => exact Int.le_refl 0
    | err e => rw [h6.1] at h2; cases h2
    | diverge => exact h6.elim
  · obtain ⟨res, h5, h6⟩ := (hx r s1 h1).elim
    refine .pure ⟨res, h5, ?_⟩
    cases res with
    | ok u => have h6 : r.null = false := h6; rw [h6] at h2; cases h2
    | err e => exact ⟨by decide, by rw [h3, exnOf, h6.2]⟩
    | diverge => exact h6.elim

/-- The proxy is a compiled security proxy. -/
structure IsProxy (E : Env) (I : Interp A) (p i : Nat) (w c : Val) : Prop where
  fits : Fits E I
  val : I.val p = .proxy i w c

theorem IsProxy.wrapped {p i : Nat} {w c : Val} (h : IsProxy E I p i w c) : I.val (E.wrapped p) = w := h.fits.wrapped _ _ _ _ h.val

theorem IsProxy.checkerOf {p i : Nat} {w c : Val} (h : IsProxy E I p i w c) : I.val (E.checkerOf p) = c := h.fits.checkerOf _ _ _ _ h.val

theorem IsProxy.isProxy {p i : Nat} {w c : Val} (h : IsProxy E I p i w c) : E.isProxy p = true := by rw [h.fits.isProxy, h.val]; rfl

theorem kindOf_ne {meth : String} {k : CheckKind} (hk : kindOf meth = some k) : meth ≠ "checkPermission" := by
  rintro rfl
  have : kindOf "checkPermission" = none := by decide
  rw [this] at hk
  cases hk

theorem kindOf_setattr {meth : String} {k : CheckKind} (hk : kindOf meth = some k) (hm : meth ≠ "check_setattr") : k ≠ .setattr := by
  unfold kindOf at hk
  split at hk
  · cases hk; decide
  · split at hk
    · cases hk; decide
    · cases hk

theorem chkCheck_read (X : Ctx A) (H : Val → Name → M A Bool) {k : CheckKind} {c o : Val} {n : Name} {i g st : Nat} (hk : k ≠ .setattr)
    (hi : X.impl = .c) (hc : c = .checker i g st) : chkCheck X H k c o n = plainCheckC X H g o n := by
  subst hc
  cases k with
  | setattr => exact absurd rfl hk
  | check => show plainCheck X H g o n = _; unfold plainCheck; rw [hi]
  | getattr => show plainCheck X H g o n = _; unfold plainCheck; rw [hi]

theorem chkCheck_combined (X : Ctx A) (H : Val → Name → M A Bool) {k : CheckKind} {c o c2 : Val} {n : Name} {i g st : Nat} (hk : k ≠ .setattr)
    (hc : c = .combined i g st c2) : chkCheck X H .check c o n = chkCheck X H k c o n := by
  subst hc
  cases k with
  | setattr => exact absurd rfl hk
  | check => rfl
  | getattr => unfold chkCheck; rfl

theorem wp_check {p i : Nat} {w c : Val} (hp : IsProxy E I p i w c) {m : Mem} {s : St A} {n a : Nat} {t meth : String}
    (hn : I.val n = .str a t) {k : CheckKind} (hk : kindOf meth = some k) (hf : ∀ c, FieldsOf E I c m s) :
    Wp E I (check E p meth n) m s (Ends (guard I.X k c w t) s (CheckResult E I)) := by
  have F := hp.fits
  have hg : guard I.X k c w t = chkCheck I.X (hasattrX I.X) k (I.val (E.checkerOf p)) (I.val (E.wrapped p)) (I.name n) := by
    rw [hp.wrapped, hp.checkerOf, name_of hn]
    rfl
  have hm := wp_method F (m := m) (s := s) (c := E.checkerOf p) (o := E.wrapped p) (n := n) hk (kindOf_ne hk)
  rw [← hg] at hm
  unfold check
  refine .ite (fun _ => hm) fun hset => ?_
  have hk' := kindOf_setattr hk hset
  have hslot := F.assSlot (E.checkerOf p)
  rw [hp.checkerOf] at hslot
  split at hslot
  · rename_i j g st
    rw [hslot]
    have hv : I.val (E.checkerOf p) = .checker j g st := hp.checkerOf
    have := wp_checkInt F (m := m) (s := s) (c := E.checkerOf p) (o := E.wrapped p) (g := g) (st := st) hn (by rw [hv]; rfl) (hf _)
    rw [hg, chkCheck_read I.X _ hk' F.impl hv, name_of hn]
    exact this
  · rename_i j g st c2
    rw [hslot]
    have hv : I.val (E.checkerOf p) = .combined j g st c2 := hp.checkerOf
    refine .callInt fun r m1 s1 h1 h2 h3 h4 => ?_
    have h1 : Runs (chkCheck I.X (hasattrX I.X) .check (I.val (E.checkerOf p)) (I.val (E.wrapped p)) (I.name n)) s s1 (ZeroAnswer I r) := h1
    rw [chkCheck_combined _ _ hk' hv, ← hg] at h1
    obtain ⟨res, h5, h6⟩ := h1.elim
    refine ⟨res, h5, ?_⟩
    cases res with
    | ok u => have h6 : r.num = 0 := h6; rw [h6]; exact Int.le_refl 0
    | err e => rw [h6.1]; exact ⟨by decide, by rw [h3 (by rw [h6.1]; decide), exnOf, h6.2]⟩
    | diverge => exact h6.elim
  · rw [hslot]
    exact hm

/-! ## Results -/

theorem wp_protect {p i : Nat} {w c : Val} (hp : IsProxy E I p i w c) {m : Mem} {s : St A} {r fuel : Nat} (hf : fuel ≤ I.X.fuel) :
    Wp E I (protect E fuel p r) m s (Ends (chkProxy I.X c (I.val r)) s (ObjResult E I)) := by
  have F := hp.fits
  have hslot := F.subSlot (E.checkerOf p)
  rw [hp.checkerOf] at hslot
  unfold protect
  by_cases hc : c.isChecker = true
  · rw [if_pos hc] at hslot
    rw [hslot]
    have : chkProxy I.X c (I.val r) = proxyC I.X (I.val r) := by
      unfold chkProxy
      rw [if_pos hc, F.impl]
    rw [this]
    exact wp_checkerProxy F hf
  · rw [if_neg hc] at hslot
    rw [hslot]
    refine .obj (y := chkProxy I.X c (I.val r)) (fun q s' h => ?_) (fun o m1 s1 h1 _ _ => ⟨_, h1, _, rfl, rfl⟩)
      fun e m1 s1 h1 h2 _ => ⟨_, h1, rfl, h2⟩
    have h := h (F.name _)
    rwa [hp.checkerOf] at h

theorem wp_proxyResult {p i : Nat} {w c : Val} (hp : IsProxy E I p i w c) {m : Mem} {s : St A} {r fuel : Nat} (hf : fuel ≤ I.X.fuel) :
    Wp E I (proxyResult E fuel p (some r)) m s (Ends (chkProxy I.X c (I.val r)) s (ObjResult E I)) := by
  refine .bind ((wp_protect hp hf).mono fun o m1 s1 ⟨res, h1, h2⟩ => .bind (.decref fun m2 h3 h4 => .pure ⟨res, h1, ?_⟩))
  cases res with
  | ok v => exact h2
  | err e => rw [ObjResult, h3]; exact h2
  | diverge => exact h2

/-- The result of an operation is protected. -/
theorem wp_result {p i : Nat} {w c : Val} (hp : IsProxy E I p i w c) {s0 s : St A} {q : Ptr} {m : Mem} {fuel : Nat} (hf : fuel ≤ I.X.fuel)
    {y : M A Val} (h : Ends y s0 (ObjResult E I) q m s) :
    Wp E I (proxyResult E fuel p q) m s (Ends (y >>= chkProxy I.X c) s0 (ObjResult E I)) := by
  obtain ⟨res, h1, h2⟩ := h
  cases res with
  | ok v =>
    obtain ⟨o, rfl, rfl⟩ := h2
    exact (wp_proxyResult hp hf).mono fun o m1 s1 h => h.swap' (m_ok h1)
  | err e =>
    obtain ⟨rfl, h2⟩ := h2
    exact .pure ⟨_, m_err h1, rfl, h2⟩
  | diverge => exact h2.elim

/-! ## Operations -/

theorem wp_api {m : Mem} {s : St A} {u : UserFn} {args : List Nat} {op : RawOp} (hr : rawOf E I u args = some op) (hu : u.isInt = false)
    {f : Val → M A Val} (hc : ∀ v, converted I.X u v = f v) :
    Wp E I (api E u args) m s (Ends (perform I.X op >>= f) s (ObjResult E I)) := by
  refine .obj (y := perform I.X op >>= f) (fun q s' h => ?_) (fun o m1 s1 h1 _ _ => ⟨_, h1, _, rfl, rfl⟩)
      fun e m1 s1 h1 h2 _ => ⟨_, h1, rfl, h2⟩
  have h := h op hr
  rw [hu] at h
  have hc : converted I.X u = f := funext hc
  rwa [hc] at h

theorem wp_api' {m : Mem} {s : St A} {u : UserFn} {args : List Nat} {op : RawOp} (hr : rawOf E I u args = some op) (hu : u.isInt = false)
    (hc : ∀ v, converted I.X u v = pure v) :
    Wp E I (api E u args) m s (Ends (perform I.X op) s (ObjResult E I)) :=
  (wp_api hr hu hc).mono fun _ _ _ h => h.swap' (m_pure_right _ _).symm

theorem wp_userInt {m : Mem} {s : St A} {u : UserFn} {args : List Nat} {op : RawOp} (hr : rawOf E I u args = some op) (hu : u.isInt = true)
    {f : Val → M A Val} (hc : ∀ v, converted I.X u v = f v) :
    Wp E I (callInt E .int (.user u) args) m s (Ends (perform I.X op >>= f) s (IntResult E I)) := by
  refine .callInt fun r m1 s1 h1 h2 h3 h4 => ?_
  have h := h1 op hr
  rw [hu, if_pos rfl] at h
  have hc : converted I.X u = f := funext hc
  rw [hc] at h
  obtain ⟨res, h5, h6⟩ := h.elim
  refine ⟨res, h5, ?_⟩
  cases res with
  | ok v => exact h6
  | err e => exact ⟨h6.1, by rw [h3 (by rw [h6.1]; decide), exnOf, h6.2]⟩
  | diverge => exact h6

/-- After a check that is passed. -/
theorem wp_checked {α : Type} {p i : Nat} {w c : Val} (hp : IsProxy E I p i w c) {m : Mem} {s : St A} {n a : Nat} {t meth : String}
    (hn : I.val n = .str a t) {k : CheckKind} (hk : kindOf meth = some k) (hf : ∀ c, FieldsOf E I c m s)
    {x : C α} {b : α} {y : M A Val} {R : α → Mem → Res Val → Prop} (hx : ∀ m s, Wp E I x m s (Ends y s R)) (hl : Along Longer x)
    (hR : ∀ m e, exnOf E I m.raised = some e → R b m (.err e)) :
    Wp E I (check E p meth n >>= fun i => if 0 ≤ i then x else pure b) m s (Ends (guard I.X k c w t >>= fun _ => y) s R) := by
  refine .bind ((wp_check hp hn hk hf).mono fun j m1 s1 ⟨res, h1, h2⟩ => ?_) (.check _ _ _) (fun _ => .ite hl (.pure _))
  cases res with
  | ok u =>
    have h2 : 0 ≤ j := h2
    rw [if_pos h2]
    exact (hx m1 s1).mono fun _ _ _ h => h.swap' (m_ok h1)
  | err e =>
    have : j < 0 := h2.1
    rw [if_neg (by omega)]
    exact .pure ⟨_, m_err h1, hR _ _ h2.2⟩
  | diverge => exact h2.elim

theorem objErr (m : Mem) (e : Exn) (h : exnOf E I m.raised = some e) : ObjResult E I .none m (.err e) := ⟨rfl, h⟩

theorem intErr (m : Mem) (e : Exn) (h : exnOf E I m.raised = some e) : IntResult E I (-1) m (.err e) := ⟨rfl, h⟩

/-- A check, an operation, and protecting the result. -/
theorem wp_op {p i : Nat} {w c : Val} (hp : IsProxy E I p i w c) {m : Mem} {s : St A} {n a : Nat} {t meth : String}
    (hn : I.val n = .str a t) {k : CheckKind} (hk : kindOf meth = some k) (hf : ∀ c, FieldsOf E I c m s) {fuel : Nat} (hfu : fuel ≤ I.X.fuel)
    {x : C Ptr} {op : RawOp} (hx : ∀ m s, Wp E I x m s (Ends (perform I.X op) s (ObjResult E I))) (hl : Along Longer x) :
    Wp E I (check E p meth n >>= fun i => if 0 ≤ i then x >>= proxyResult E fuel p else pure .none) m s
      (Ends (check1C I.X k w c t op) s (ObjResult E I)) :=
  wp_checked hp hn hk hf (y := perform I.X op >>= chkProxy I.X c)
    (fun m s => .bind ((hx m s).mono fun _ _ _ h => wp_result hp hfu h) hl (fun _ => .proxyResult _ _ _))
    (.bind hl fun _ => .proxyResult _ _ _) objErr

theorem wp_check1 {p i : Nat} {w c : Val} (hp : IsProxy E I p i w c) {m : Mem} {s : St A} {n a : Nat} {t : String}
    (hn : I.val n = .str a t) (hf : ∀ c, FieldsOf E I c m s) {fuel : Nat} (hfu : fuel ≤ I.X.fuel)
    {x : Nat → C Ptr} {op : RawOp} (hx : ∀ m s, Wp E I (x (E.wrapped p)) m s (Ends (perform I.X op) s (ObjResult E I)))
    (hl : Along Longer (x (E.wrapped p))) :
    Wp E I (check1 E fuel p n x) m s (Ends (check1C I.X .check w c t op) s (ObjResult E I)) :=
  wp_op hp hn rfl hf hfu hx hl

/-- The special method names whose results are not converted. -/
def plainName (n : String) : Bool :=
  !(["__len__", "__hash__", "__bool__", "__contains__", "__setitem__", "__delitem__", "__str__", "__repr__"].contains n)

theorem converted_plain (X : Ctx A) {n : String} (h : plainName n = true) (v : Val) : converted X (.special n) v = pure v := by
  simp only [plainName, Bool.not_eq_true', List.contains_eq_mem, decide_eq_false_iff_not, List.mem_cons, List.not_mem_nil, or_false, not_or] at h
  obtain ⟨h1, h2, h3, h4, h5, h6, h7, h8⟩ := h
  simp [converted, h1, h2, h3, h4, h5, h6, h7, h8]

theorem isInt_plain {n : String} (h : plainName n = true) : (UserFn.special n).isInt = false := by
  simp only [plainName, Bool.not_eq_true', List.contains_eq_mem, decide_eq_false_iff_not, List.mem_cons, List.not_mem_nil, or_false, not_or] at h
  obtain ⟨h1, h2, h3, h4, h5, h6, h7, h8⟩ := h
  simp [UserFn.isInt, h1, h2, h3, h4, h5, h6]

theorem wp_special {m : Mem} {s : St A} {n : String} {o : Nat} {args : List Nat} (hn : plainName n = true) (hc : n ≠ "__call__") :
    Wp E I (api E (.special n) (o :: args)) m s (Ends (perform I.X (.special n (I.val o) (args.map I.val))) s (ObjResult E I)) :=
  wp_api' (by simp [rawOf, hc]) (isInt_plain hn) (converted_plain _ hn)

theorem wp_getattr {p i : Nat} {w c : Val} (hp : IsProxy E I p i w c) {m : Mem} {s : St A} {n a : Nat} {t : String}
    (hn : I.val n = .str a t) (hf : ∀ c, FieldsOf E I c m s) {fuel : Nat} (hfu : fuel ≤ I.X.fuel) :
    Wp E I (proxyGetattro E fuel p n) m s (Ends (getattroC I.X (hasattrX I.X) w c t) s (ObjResult E I)) := by
  have h := wp_op hp hn (meth := "check_getattr") (k := .getattr) rfl hf hfu (x := api E .getAttr [E.wrapped p, n]) (op := .getattr w t) (fun m s =>
    wp_api' (by simp [rawOf, hp.wrapped, name_of hn]) rfl fun _ => rfl) (.api _ _)
  exact h

theorem wp_unary {p i : Nat} {w c : Val} (hp : IsProxy E I p i w c) {m : Mem} {s : St A} {n : String} (hn : plainName n = true)
    (hc : n ≠ "__call__") (hf : ∀ c, FieldsOf E I c m s) {fuel : Nat} (hfu : fuel ≤ I.X.fuel) {args : List Nat} :
    Wp E I (check1 E fuel p (E.const n) fun w => api E (.special n) (w :: args)) m s
      (Ends (check1C I.X .check w c n (.special n w (args.map I.val))) s (ObjResult E I)) := by
  refine wp_check1 hp (hp.fits.const n) hf hfu (fun m s => ?_) (.api _ _)
  have := wp_special (E := E) (I := I) (m := m) (s := s) (o := E.wrapped p) (args := args) hn hc
  rwa [hp.wrapped] at this

theorem wp_number {p i : Nat} {w c : Val} (hp : IsProxy E I p i w c) {m : Mem} {s : St A} {n : String} (hn : plainName n = true)
    (hc : n ≠ "__call__") (hf : ∀ c, FieldsOf E I c m s) {fuel : Nat} (hfu : fuel ≤ I.X.fuel) (hh : E.hasNumber (E.wrapped p) = true) :
    Wp E I (check1 E fuel p (E.const n) (callNumber E n)) m s (Ends (check1C I.X .check w c n (.special n w [])) s (ObjResult E I)) := by
  refine wp_check1 hp (hp.fits.const n) hf hfu (fun m s => ?_) (.callNumber _ _)
  refine .bind (.use ?_)
  rw [if_pos hh]
  have := wp_special (E := E) (I := I) (m := m) (s := s) (o := E.wrapped p) (args := []) hn hc
  rwa [hp.wrapped] at this

theorem wp_call {p i : Nat} {w c : Val} (hp : IsProxy E I p i w c) {m : Mem} {s : St A} (hf : ∀ c, FieldsOf E I c m s) {fuel : Nat}
    (hfu : fuel ≤ I.X.fuel) {args : Nat} :
    Wp E I (proxyCall E fuel p args .none) m s
      (Ends (check1C I.X .check w c "__call__" (.special "__call__" w ((I.tuple args).map I.val))) s (ObjResult E I)) := by
  refine wp_check1 hp (hp.fits.const _) hf hfu (fun m s => ?_) (.api _ _)
  exact wp_api' (by simp [rawOf, hp.wrapped]) (isInt_plain (by decide)) (converted_plain _ (by decide))

theorem wp_next {p i : Nat} {w c : Val} (hp : IsProxy E I p i w c) {m : Mem} {s : St A} (hf : ∀ c, FieldsOf E I c m s) {fuel : Nat}
    (hfu : fuel ≤ I.X.fuel) :
    Wp E I (proxyIternext E fuel p) m s (Ends (check1C I.X .getattr w c "__next__" (.special "__next__" w [])) s (ObjResult E I)) := by
  refine wp_op hp (hp.fits.const _) rfl hf hfu (fun m s => ?_) (.callNext _)
  have key : ∀ r s', Explained E I s ⟨.user (.special "__next__"), [E.wrapped p], m.raised, r⟩ s' →
      Runs (perform I.X (.special "__next__" w [])) s s' (ObjAnswer I r) := by
    intro r s' h
    have h := h (.special "__next__" w []) (by simp [rawOf, hp.wrapped])
    rw [isInt_plain (by decide)] at h
    unfold Runs at h ⊢
    have hc : converted I.X (.special "__next__") = pure := funext (converted_plain _ (by decide))
    rw [hc, m_pure_right] at h
    exact h
  refine .callNext (fun r m1 s1 h1 h2 => ?_) fun r m1 s1 h1 h2 h3 => ?_
  · obtain ⟨res, h5, h6⟩ := (key r s1 h1).elim
    refine ⟨res, h5, ?_⟩
    cases res with
    | ok v => exact ⟨_, rfl, h6.2⟩
    | err e => rw [h6.1] at h2; cases h2
    | diverge => exact h6
  · obtain ⟨res, h5, h6⟩ := (key r s1 h1).elim
    refine ⟨res, h5, ?_⟩
    cases res with
    | ok v => rw [h6.1] at h2; cases h2
    | err e => exact ⟨rfl, by rw [h3, exnOf, h6.2]⟩
    | diverge => exact h6

/-! ## Operators with two operands -/

theorem isProxy_dest {v : Val} (h : v.isProxy = true) : ∃ i w c, v = .proxy i w c := by
  cases v <;> first | exact ⟨_, _, _, rfl⟩ | cases h

theorem check2C_left (X : Ctx A) (b : BinName) (i : Nat) (w c r : Val) :
    check2C X b (.proxy i w c) r = check1C X .check w c b.op (.binop b.op w r) := rfl

theorem check2C_right (X : Ctx A) (b : BinName) (l : Val) (i : Nat) (w c : Val) (h : ¬l.isProxy = true) :
    check2C X b l (.proxy i w c) = check1C X .check w c b.rop (.binop b.op l w) := by
  cases l <;> first | rfl | exact absurd rfl h

theorem check2C_none (X : Ctx A) (b : BinName) (l r : Val) (h : ¬l.isProxy = true) (h' : ¬r.isProxy = true) :
    check2C X b l r = pure .notImpl := by
  cases l <;> first | exact absurd rfl h | (cases r <;> first | rfl | exact absurd rfl h')

theorem wp_binary (F : Fits E I) {m : Mem} {s : St A} (hf : ∀ c, FieldsOf E I c m s) {fuel : Nat} (hfu : fuel ≤ I.X.fuel) (b : BinName)
    (l r : Nat) : Wp E I (check2 E fuel l r (E.const b.op) (E.const b.rop) fun x y => api E (.binary b.op) [x, y]) m s
      (Ends (check2C I.X b (I.val l) (I.val r)) s (ObjResult E I)) := by
  refine .bind (.useAll ?_) (.useAll _) (fun _ => ?_)
  · refine .ite (fun hl => ?_) fun hl => ?_
    · rw [F.isProxy] at hl
      obtain ⟨i, w, c, hv⟩ := isProxy_dest hl
      have hp : IsProxy E I l i w c := ⟨F, hv⟩
      rw [hv]
      have h := wp_op hp (F.const b.op) (meth := "check") (k := .check) rfl hf hfu (x := api E (.binary b.op) [E.wrapped l, r])
        (op := .binop b.op w (I.val r)) (fun m s => wp_api' (by simp [rawOf, hp.wrapped]) rfl fun _ => rfl) (.api _ _)
      exact h
    · rw [F.isProxy] at hl
      refine .ite (fun hr => ?_) fun hr => ?_
      · rw [F.isProxy] at hr
        obtain ⟨i, w, c, hv⟩ := isProxy_dest hr
        have hp : IsProxy E I r i w c := ⟨F, hv⟩
        rw [hv, check2C_right _ _ _ _ _ _ hl]
        have h := wp_op hp (F.const b.rop) (meth := "check") (k := .check) rfl hf hfu (x := api E (.binary b.op) [l, E.wrapped r])
          (op := .binop b.op (I.val l) w) (fun m s => wp_api' (by simp [rawOf, hp.wrapped]) rfl fun _ => rfl) (.api _ _)
        exact h
      · rw [F.isProxy] at hr
        rw [check2C_none _ _ _ _ hl hr]
        exact .bind (.incref fun m1 _ _ => .pure ⟨_, rfl, _, rfl, F.notImplemented⟩)
  · fields

theorem rawOf_pow (a b : Nat) (md : Ptr) : rawOf E I .power ([a, b] ++ md.toList) = some (.pow (I.val a) (I.val b) (powArg I md)) := by
  cases md <;> rfl

theorem wp_powWith {p i : Nat} {w c : Val} (hp : IsProxy E I p i w c) {m : Mem} {s : St A} (hf : ∀ c, FieldsOf E I c m s) {fuel : Nat}
    (hfu : fuel ≤ I.X.fuel) {n : String} {args : List Nat} {op : RawOp} (hr : rawOf E I .power args = some op) :
    Wp E I (powWith E fuel p (E.const n) args) m s (Ends (check1C I.X .check w c n op) s (ObjResult E I)) :=
  wp_op hp (hp.fits.const n) rfl hf hfu (fun _ _ => wp_api' hr rfl fun _ => rfl) (.api _ _)

theorem powC_right (X : Ctx A) (x m : Val) (i : Nat) (w c : Val) (h : ¬x.isProxy = true) :
    powC X x (.proxy i w c) m = check1C X .check w c "__rpow__" (.pow x w m) := by
  cases x <;> first | rfl | exact absurd rfl h

theorem powC_third (X : Ctx A) (x y : Val) (i : Nat) (w c : Val) (h : ¬x.isProxy = true) (h' : ¬y.isProxy = true) :
    powC X x y (.proxy i w c) = check1C X .check w c "__3pow__" (.pow x y w) := by
  cases x <;> first | exact absurd rfl h | (cases y <;> first | rfl | exact absurd rfl h')

theorem powC_none (X : Ctx A) (x y m : Val) (h : ¬x.isProxy = true) (h' : ¬y.isProxy = true) (h'' : ¬m.isProxy = true) :
    powC X x y m = pure .notImpl := by
  cases x <;> first | exact absurd rfl h | (cases y <;> first | exact absurd rfl h' | (cases m <;> first | rfl | exact absurd rfl h''))

theorem wp_pow (F : Fits E I) {m : Mem} {s : St A} (hf : ∀ c, FieldsOf E I c m s) {fuel : Nat} (hfu : fuel ≤ I.X.fuel)
    (x y : Nat) (md : Ptr) : Wp E I (proxyPow E fuel x y md) m s (Ends (powC I.X (I.val x) (I.val y) (powArg I md)) s (ObjResult E I)) := by
  refine .bind (.useAll (.ite (fun hx => ?_) fun hx => ?_))
  · rw [F.isProxy] at hx
    obtain ⟨i, w, c, hv⟩ := isProxy_dest hx
    have hp : IsProxy E I x i w c := ⟨F, hv⟩
    rw [hv]
    refine wp_powWith hp hf hfu ?_
    rw [rawOf_pow, hp.wrapped]
  · rw [F.isProxy] at hx
    refine .ite (fun hy => ?_) fun hy => ?_
    · rw [F.isProxy] at hy
      obtain ⟨i, w, c, hv⟩ := isProxy_dest hy
      have hp : IsProxy E I y i w c := ⟨F, hv⟩
      rw [hv, powC_right _ _ _ _ _ _ hx]
      refine wp_powWith hp hf hfu ?_
      rw [rawOf_pow, hp.wrapped]
    · rw [F.isProxy] at hy
      cases md with
      | none =>
        rw [powArg, powC_none _ _ _ _ hx hy (show ¬Val.none.isProxy = true by decide)]
        exact .bind (.incref fun m1 _ _ => .pure ⟨_, rfl, _, rfl, F.notImplemented⟩)
      | some md =>
        refine .ite (fun hm => ?_) fun hm => ?_
        · rw [F.isProxy] at hm
          obtain ⟨i, w, c, hv⟩ := isProxy_dest hm
          have hp : IsProxy E I md i w c := ⟨F, hv⟩
          rw [powArg, hv, powC_third _ _ _ _ _ _ hx hy]
          refine wp_powWith hp hf hfu ?_
          show some (RawOp.pow (I.val x) (I.val y) (I.val (E.wrapped md))) = _
          rw [hp.wrapped]
        · rw [F.isProxy] at hm
          rw [powArg, powC_none _ _ _ _ hx hy hm]
          exact .bind (.incref fun m1 _ _ => .pure ⟨_, rfl, _, rfl, F.notImplemented⟩)

theorem wp_inplace {p i : Nat} {w c : Val} (hp : IsProxy E I p i w c) {m : Mem} {s : St A} (hf : ∀ c, FieldsOf E I c m s) {fuel : Nat}
    (hfu : fuel ≤ I.X.fuel) (b : InName) {o : Nat} {x : Nat → Nat → C Ptr}
    (hx : ∀ m s, Wp E I (x (E.wrapped p) o) m s (Ends (perform I.X (.inplace b.op w (I.val o))) s (ObjResult E I)))
    (hl : ∀ a b, Along Longer (x a b)) :
    Wp E I (check2i E fuel p o (E.const b.op) x) m s (Ends (inplaceC I.X i w c b (I.val o)) s (ObjResult E I)) := by
  have F := hp.fits
  refine wp_checked hp (F.const b.op) rfl hf (y := do
    let v ← perform I.X (.inplace b.op w (I.val o))
    if v = w then pure (.proxy i w c) else chkProxy I.X c v) (fun m s => ?_) ?_ objErr
  · refine .bind ((hx m s).mono fun q m1 s1 he => ?_) (hl _ _) (fun _ => by fields)
    obtain ⟨res, h1, h2⟩ := id he
    refine .ite (fun hq => ?_) fun hq => ?_
    · cases res with
      | ok v =>
        obtain ⟨o', rfl, rfl⟩ := h2
        cases hq
        refine .bind (.decref fun m2 _ _ => .bind (.incref fun m3 _ _ => .pure ⟨.ok (.proxy i w c), ?_, _, rfl, hp.val⟩))
        rw [m_ok h1, if_pos hp.wrapped]
        rfl
      | err e => rw [h2.1] at hq; cases hq
      | diverge => exact h2.elim
    · cases res with
      | ok v =>
        obtain ⟨o', rfl, rfl⟩ := h2
        have hne : I.val o' ≠ w := fun h => hq (by rw [F.inj _ _ (h.trans hp.wrapped.symm)])
        refine (wp_proxyResult hp hfu).mono fun _ _ _ h => h.swap' ?_
        rw [m_ok h1, if_neg hne]
      | err e =>
        obtain ⟨rfl, h2⟩ := h2
        exact .pure ⟨_, m_err h1, rfl, h2⟩
      | diverge => exact h2.elim
  · exact .bind (hl _ _) fun _ => by fields

theorem wp_compare {p i : Nat} {w c : Val} (hp : IsProxy E I p i w c) {m : Mem} {s : St A} {fuel : Nat}
    (hfu : fuel ≤ I.X.fuel) (b : CmpName) {o : Nat} :
    Wp E I (proxyRichcompare E fuel b.op p o) m s (Ends (compareC I.X w c b (I.val o)) s (ObjResult E I)) := by
  have F := hp.fits
  have ha := wp_api' (E := E) (I := I) (m := m) (s := s) (u := .compare b.op) (args := [E.wrapped p, o])
    (op := .compare b.op w (I.val o)) (by simp [rawOf, hp.wrapped]) rfl fun _ => rfl
  refine .bind (ha.mono fun q m1 s1 ⟨res, h1, h2⟩ => ?_)
  cases res with
  | ok v =>
    obtain ⟨o', rfl, rfl⟩ := h2
    have hrun : compareC I.X w c b (I.val o) s = (match I.val o' with
        | .bool t => pure (.bool t)
        | v => chkProxy I.X c v : M A Val) s1 := m_ok h1
    refine .ite (fun hq => ?_) fun hq => ?_
    · refine .pure ⟨.ok (I.val o'), ?_, _, rfl, rfl⟩
      rw [hrun]
      rcases hq with hq | hq <;> (cases hq; first | rw [F.true_] | rw [F.false_]) <;> rfl
    · have hnb : ∀ t, I.val o' ≠ .bool t := by
        intro t ht
        cases t with
        | true => exact hq (.inl (by rw [F.inj _ _ (ht.trans F.true_.symm)]))
        | false => exact hq (.inr (by rw [F.inj _ _ (ht.trans F.false_.symm)]))
      refine (wp_proxyResult hp hfu).mono fun _ _ _ h => h.swap' ?_
      rw [hrun]
      clear h hrun h1
      revert hnb
      generalize I.val o' = v
      intro hnb
      cases v <;> first | rfl | exact absurd rfl (hnb _)
  | err e =>
    obtain ⟨rfl, h2⟩ := h2
    rw [if_neg (by rintro (h | h) <;> cases h)]
    exact .pure ⟨_, m_err h1, rfl, h2⟩
  | diverge => exact h2.elim

/-! ## Length hints and texts -/

theorem wp_lengthHint {p i : Nat} {w c : Val} (hp : IsProxy E I p i w c) {m : Mem} {s : St A} :
    Wp E I (proxyLengthHint E p) m s (Ends (lengthHintC I.X w) s (ObjResult E I)) := by
  have F := hp.fits
  have ha := wp_api' (E := E) (I := I) (m := m) (s := s) (u := .method "__length_hint__") (args := [E.wrapped p])
    (op := .method w "__length_hint__" []) (by simp [rawOf, hp.wrapped]) rfl fun _ => rfl
  have hrun : lengthHintC I.X w s = match perform I.X (.method w "__length_hint__" []) s with
      | (.ok a, s') => (.ok a, s')
      | (.err e, s') => if e.isAttr then (.ok .notImpl, s') else (.err e, s')
      | (.diverge, s') => (.diverge, s') := by
    show M.tryCatch _ _ _ s = _
    unfold M.tryCatch
    rcases perform I.X (.method w "__length_hint__" []) s with ⟨_ | _ | _, _⟩ <;> rfl
  refine .bind (ha.mono fun q m1 s1 ⟨res, h1, h2⟩ => ?_)
  rw [h1] at hrun
  cases res with
  | ok v =>
    obtain ⟨o', rfl, rfl⟩ := h2
    exact .pure ⟨_, hrun, _, rfl, rfl⟩
  | err e =>
    obtain ⟨rfl, h2⟩ := h2
    refine .bind (.callTest fun r m2 s2 h3 h4 h5 => ?_)
    obtain ⟨rfl, h6⟩ := h3 rfl
    have h6 : r.num = if e.isAttr then 1 else 0 := h6 e h2
    rw [h6]
    cases he : e.isAttr with
    | true =>
      dsimp only at hrun
      rw [he] at hrun
      exact .bind (.clearErr fun m3 _ _ => .bind (.incref fun m4 _ _ => .pure ⟨_, hrun, _, rfl, F.notImplemented⟩))
    | false =>
      dsimp only at hrun
      rw [he] at hrun
      exact .pure ⟨_, hrun, rfl, by rw [h4]; exact h2⟩
  | diverge => exact h2.elim

/-- An attribute of an object looked up by `default_repr`. -/
theorem wp_probe (F : Fits E I) {m : Mem} {s : St A} {o : Nat} {n : String} {Q : Ptr → Mem → St A → Prop} (h1 : n ≠ "interaction")
    (h2 : n ≠ "__Security_checker__")
    (hok : ∀ r m' s', probe I.X (.getattr (I.val o) n) s = (.ok (I.val r), s') → Q (some r) m' s')
    (herr : ∀ e m' s', probe I.X (.getattr (I.val o) n) s = (.err e, s') → exnOf E I m'.raised = some e → Q .none m' s') :
    Wp E I (callObj E .api .getAttr [o, E.const n]) m s Q :=
  .obj (y := probe I.X (.getattr (I.val o) n)) (fun r s' h => by simpa [Explained, F.name, h1, h2] using h)
    (fun r m' s' h _ _ => hok r m' s' h) fun e m' s' h h' _ => herr e m' s' h h'

theorem wp_makeString {m : Mem} {s : St A} {o : Nat} {Q : Ptr → Mem → St A → Prop}
    (hok : ∀ b m' a t, I.val o = .str a t → E.bytes b = t.toList → Q (some b) m' s) (herr : ∀ m', Q .none m' s) :
    Wp E I (makeString E o) m s Q := by
  refine .callObj (fun r m' s' h1 h2 h3 h4 => ?_) (fun r m' s' h1 h2 h3 h4 => ?_)
  · obtain ⟨rfl, h1⟩ := h1
    dsimp only at h1
    split at h1
    · rename_i a t hv
      exact hok _ _ a t hv h1.2
    · rw [h1.1] at h2
      cases h2
  · obtain ⟨rfl, h1⟩ := h1
    exact herr _

/-- The end of `default_repr`, once class and name are known. -/
def reprEnd (X : Ctx A) (w klass : Val) (name : String) : M A Val := do
  let smod ← M.tryCatch (do
      let m ← probe X (.getattr klass "__module__")
      pure (some m)) (fun _ => true) (fun _ => pure none)
  match smod with
  | some m => do
    let ms ← asName m
    pure (.str 0 ("<security proxied " ++ ms ++ "." ++ name ++ " instance at " ++ X.W.addr w ++ ">"))
  | none =>
    pure (.str 0 ("<security proxied " ++ name ++ " instance at " ++ X.W.addr w ++ ">"))

theorem reprEnd_ok {X : Ctx A} {w klass v : Val} {name : String} {s s1 : St A} (h : probe X (.getattr klass "__module__") s = (.ok v, s1)) :
    reprEnd X w klass name s = (do
      let ms ← asName v
      pure (.str 0 ("<security proxied " ++ ms ++ "." ++ name ++ " instance at " ++ X.W.addr w ++ ">")) : M A Val) s1 := by
  refine m_ok (a := some v) ?_
  unfold M.tryCatch
  rw [m_ok h]
  rfl

theorem reprEnd_err {X : Ctx A} {w klass : Val} {name : String} {s s1 : St A} {e : Exn} (h : probe X (.getattr klass "__module__") s = (.err e, s1)) :
    reprEnd X w klass name s = (.ok (.str 0 ("<security proxied " ++ name ++ " instance at " ++ X.W.addr w ++ ">")), s1) := by
  refine (m_ok (a := none) (s1 := s1) ?_).trans rfl
  unfold M.tryCatch
  rw [m_err h]
  rfl

theorem reprOf_some (X : Ctx A) (tm t : String) (o : Val) : reprOf X (some tm.toList) t.toList o =
    "<security proxied " ++ tm ++ "." ++ t ++ " instance at " ++ X.W.addr o ++ ">" := by
  unfold reprOf
  generalize "<security proxied " = a
  generalize " instance at " = b
  generalize ">" = c
  generalize "." = d
  simp only [String.ofList_toList, String.append_assoc]

theorem reprOf_none (X : Ctx A) (t : String) (o : Val) : reprOf X none t.toList o =
    "<security proxied " ++ t ++ " instance at " ++ X.W.addr o ++ ">" := by
  unfold reprOf
  generalize "<security proxied " = a
  generalize " instance at " = b
  generalize ">" = c
  simp only [String.ofList_toList, String.append_assoc, String.append_empty]

theorem wp_reprText (F : Fits E I) {m : Mem} {s : St A} {o klass b : Nat} {t : String} (ht : E.bytes b = t.toList) :
    Wp E I (reprText E o klass (some b)) m s
      (Ends (reprEnd I.X (I.val o) (I.val klass) t) s fun q => ObjResult E I q.2) := by
  have hfmt : ∀ (md : Option (List Char)) (m1 : Mem) (s1 : St A) (q : Ptr),
      reprEnd I.X (I.val o) (I.val klass) t s = (.ok (.str 0 (reprOf I.X md t.toList (I.val o))), s1) →
      Wp E I (do
        let nt ← readText E (some b)
        let result ← callObj E .api (.format md nt) [o]
        pure (q, result)) m1 s1 (Ends (reprEnd I.X (I.val o) (I.val klass) t) s fun q => ObjResult E I q.2) := by
    intro md m1 s1 q hrun
    refine .bind (.readText fun b' hb => ?_)
    cases hb
    rw [ht]
    refine .bind (.callObj (fun r m2 s2 h1 h2 h3 h4 => ?_) (fun r m2 s2 h1 h2 h3 h4 => ?_))
    · obtain ⟨rfl, _, h1⟩ := h1
      exact .pure ⟨_, hrun, _, rfl, h1⟩
    · obtain ⟨rfl, h1, _⟩ := h1
      rw [h1] at h2
      cases h2
  refine .bind (wp_probe F (by decide) (by decide) (fun v m1 s1 h1 => ?_) fun e m1 s1 h1 _ => ?_)
  · refine .bind (wp_makeString (fun b' m2 a tm hv hb => ?_) fun m2 => ?_)
    · refine .bind (.readText fun b'' hb' => ?_)
      cases hb'
      rw [hb]
      refine hfmt (some tm.toList) m2 s1 (some v) ?_
      rw [reprEnd_ok h1, hv, reprOf_some]
      rfl
    · refine .bind (.readText fun b'' hb' => ?_)
      cases hb'
  · refine .bind (.clearErr fun m2 _ _ => hfmt .none m2 s1 .none ?_)
    rw [reprEnd_err h1, reprOf_none]

theorem defaultReprC_eq (X : Ctx A) (w : Val) : defaultReprC X w = (do
    let klass ← probe X (.getattr w "__class__")
    let name ← probe X (.getattr klass "__name__")
    let sname ← asName name
    reprEnd X w klass sname) := rfl

theorem wp_defaultRepr (F : Fits E I) {m : Mem} {s : St A} {o : Nat} :
    Wp E I (defaultRepr E o) m s (Ends (defaultReprC I.X (I.val o)) s (ObjResult E I)) := by
  rw [defaultReprC_eq]
  refine .bind (wp_probe F (by decide) (by decide) (fun klass m1 s1 h1 => ?_) fun e m1 s1 h1 h2 => ?_)
  · refine .bind (wp_probe F (by decide) (by decide) (fun name m2 s2 h2 => ?_) fun e m2 s2 h2 h3 => ?_)
    · refine .bind (wp_makeString (fun b m3 a t hv hb => ?_) fun m3 => ?_)
      · refine .bind ((wp_reprText F hb).mono fun q m4 s4 ⟨res, h4, h5⟩ => ?_)
        refine .bind (.decref fun m5 h6 _ => .bind (.decref fun m6 h7 _ => .bind (.xdecref fun m7 h8 _ => .pure ⟨res, ?_, ?_⟩)))
        · rw [m_ok h1, m_ok h2, hv]
          exact h4
        · have : m7.raised = m4.raised := by rw [h8, h7, h6]
          cases res with
          | ok v => exact h5
          | err e => exact ⟨h5.1, by rw [this]; exact h5.2⟩
          | diverge => exact h5
      · refine .bind ?_
        refine .bind (wp_probe F (by decide) (by decide) (fun v m1 s1 h1 => ?_) fun e m1 s1 h1 _ => ?_)
        · refine .bind (wp_makeString (fun b' m2 a tm hv hb => ?_) fun m2 => ?_)
          · exact .bind (.readText fun _ _ => .bind (.readText fun b'' hb' => by cases hb'))
          · exact .bind (.readText fun b'' hb' => by cases hb')
        · exact .bind (.clearErr fun m2 _ _ => .bind (.readText fun b'' hb' => by cases hb'))
    · refine .bind (.decref fun m5 h6 _ => .pure ⟨.err e, ?_, rfl, by rw [h6]; exact h3⟩)
      rw [m_ok h1]
      exact m_err h2
  · exact .pure ⟨_, m_err h1, rfl, h2⟩

theorem wp_text {p i : Nat} {w c : Val} (hp : IsProxy E I p i w c) {m : Mem} {s : St A} (hf : ∀ c, FieldsOf E I c m s) {n : String}
    (hn : n = "__str__" ∨ n = "__repr__") : Wp E I (proxyText E p n) m s (Ends (strC I.X w c n) s (ObjResult E I)) := by
  have F := hp.fits
  have hrun : strC I.X w c n s = match guard I.X .check c w n s with
      | (.ok (), s1) => (do
          let v ← perform I.X (.special n w [])
          asStr I.X.W v : M A Val) s1
      | (.err _, s1) => defaultReprC I.X w s1
      | (.diverge, s1) => (.diverge, s1) := rfl
  refine .bind ((wp_check hp (F.const n) (k := .check) rfl hf).mono fun j m1 s1 ⟨res, h1, h2⟩ => ?_)
  rw [h1] at hrun
  cases res with
  | ok u =>
    have h2 : 0 ≤ j := h2
    rw [if_pos h2]
    have h3 := wp_api (E := E) (I := I) (m := m1) (s := s1) (u := .special n) (args := [E.wrapped p]) (op := .special n w [])
      (f := asStr I.X.W) (by rcases hn with rfl | rfl <;> simp [rawOf, hp.wrapped])
      (by rcases hn with rfl | rfl <;> decide) (by rcases hn with rfl | rfl <;> intro v <;> simp [converted])
    exact h3.mono fun _ _ _ h => h.swap' hrun
  | err e =>
    have : j < 0 := h2.1
    rw [if_neg (by omega)]
    have h3 := fun m => wp_defaultRepr F (E := E) (I := I) (m := m) (s := s1) (o := E.wrapped p)
    rw [hp.wrapped] at h3
    exact .bind (.clearErr fun m2 _ _ => (h3 m2).mono fun _ _ _ h => h.swap' hrun)
  | diverge => exact h2.elim

/-! ## Operations with an int as result -/

theorem wp_checkedInt {p i : Nat} {w c : Val} (hp : IsProxy E I p i w c) {m : Mem} {s : St A} {n a : Nat} {t meth : String}
    (hn : I.val n = .str a t) {k : CheckKind} (hk : kindOf meth = some k) (hf : ∀ c, FieldsOf E I c m s)
    {u : UserFn} {args : List Nat} {op : RawOp} (hr : rawOf E I u args = some op) (hu : u.isInt = true)
    {f : Val → M A Val} (hc : ∀ v, converted I.X u v = f v) :
    Wp E I (check E p meth n >>= fun i => if 0 ≤ i then callInt E .int (.user u) args else pure (-1)) m s
      (Ends (do
        guard I.X k c w t
        let v ← perform I.X op
        f v) s (IntResult E I)) :=
  wp_checked hp hn hk hf (fun _ _ => wp_userInt hr hu hc) (.callInt _ _ _) intErr

theorem wp_setitem {p i : Nat} {w c : Val} (hp : IsProxy E I p i w c) {m : Mem} {s : St A} (hf : ∀ c, FieldsOf E I c m s) {k v : Nat} :
    Wp E I (proxySetitem E p k (some v)) m s (Ends (popC I.X i w c (.setitem (I.val k) (I.val v))) s (IntResult E I)) :=
  wp_checkedInt hp (hp.fits.const _) rfl hf (by simp [rawOf, hp.wrapped]) (by decide) (f := fun _ => pure .none) (by intro v; simp [converted])

theorem wp_delitem {p i : Nat} {w c : Val} (hp : IsProxy E I p i w c) {m : Mem} {s : St A} (hf : ∀ c, FieldsOf E I c m s) {k : Nat} :
    Wp E I (proxySetitem E p k .none) m s (Ends (popC I.X i w c (.delitem (I.val k))) s (IntResult E I)) :=
  wp_checkedInt hp (hp.fits.const _) rfl hf (by simp [rawOf, hp.wrapped]) (by decide) (f := fun _ => pure .none) (by intro v; simp [converted])

theorem wp_objSlot {p i : Nat} {w c : Val} (hp : IsProxy E I p i w c) {x : C Ptr} {op : POp} (hx : ObjSlot E I p x op) {m : Mem} {s : St A}
    (hf : ∀ c, FieldsOf E I c m s) : Wp E I x m s (Ends (popC I.X i w c op) s (ObjResult E I)) := by
  have F := hp.fits
  cases hx with
  | getattr inside hfu hn => exact wp_getattr hp hn hf hfu
  | unary u hfu hu =>
    have h : ∀ n, plainName n = true → n ≠ "__call__" → Wp E I (check1 E _ p (E.const n) fun w => api E (.special n) [w]) m s
      (Ends (check1C I.X .check w c n (.special n w [])) s (ObjResult E I)) := fun n h1 h2 => wp_unary hp h1 h2 hf hfu
    cases u with
    | neg => exact h _ (by decide) (by decide)
    | pos => exact h _ (by decide) (by decide)
    | abs => exact h _ (by decide) (by decide)
    | invert => exact h _ (by decide) (by decide)
    | int => exact absurd hu (by decide)
    | float => exact absurd hu (by decide)
    | complex => exact absurd hu (by decide)
    | index => exact absurd hu (by decide)
  | number u hfu hu hh =>
    have h : ∀ n, plainName n = true → n ≠ "__call__" → Wp E I (check1 E _ p (E.const n) (callNumber E n)) m s
      (Ends (check1C I.X .check w c n (.special n w [])) s (ObjResult E I)) := fun n h1 h2 => wp_number hp h1 h2 hf hfu hh
    cases u with
    | int => exact h _ (by decide) (by decide)
    | float => exact h _ (by decide) (by decide)
    | neg => exact absurd hu (by decide)
    | pos => exact absurd hu (by decide)
    | abs => exact absurd hu (by decide)
    | invert => exact absurd hu (by decide)
    | complex => exact absurd hu (by decide)
    | index => exact absurd hu (by decide)
  | call hfu => exact wp_call hp hf hfu
  | getitem hfu => exact wp_unary hp (by decide) (by decide) hf hfu
  | igetitem hfu =>
    refine .bind (.callObj (fun r m1 s1 h1 h2 h3 h4 => ?_) fun r m1 s1 h1 h2 h3 h4 => ?_)
    · obtain ⟨rfl, _, h5⟩ := h1
      have h := wp_unary hp (n := "__getitem__") (by decide) (by decide) (h4.fields hf) hfu (args := [r.obj])
      refine .bind (h.mono fun q m2 s2 ⟨res, h6, h7⟩ => .bind (.decref fun m3 h8 _ => .pure ⟨res, ?_, ?_⟩))
      · rw [List.map_singleton, h5] at h6
        exact h6
      · cases res with
        | ok v => exact h7
        | err e => exact ⟨h7.1, by rw [h8]; exact h7.2⟩
        | diverge => exact h7
    · obtain ⟨rfl, h5, _⟩ := h1
      rw [h5] at h2
      cases h2
  | iter hfu => exact wp_unary hp (by decide) (by decide) hf hfu
  | next hfu => exact wp_next hp hf hfu
  | binL b hfu =>
    have h := wp_binary F hf hfu b p
    rw [hp.val] at h
    exact h _
  | binR b hfu =>
    have h := fun l => wp_binary F hf hfu b l p
    rw [hp.val] at h
    exact h _
  | pow hfu =>
    have h := wp_pow F hf hfu p
    rw [hp.val] at h
    exact h _ _
  | rpow hfu =>
    have h := fun x => wp_pow F hf hfu x p
    rw [hp.val] at h
    exact h _ _
  | @pow3 _ x y hfu =>
    have h := wp_pow F hf hfu x y (some p)
    rw [powArg, hp.val] at h
    exact h
  | inplace b hfu _ =>
    exact wp_inplace hp hf hfu b (fun m s => wp_api' (by simp [rawOf, hp.wrapped]) rfl fun _ => rfl) (fun _ _ => .api _ _)
  | ipow hfu =>
    exact wp_inplace hp hf hfu .ipow (fun m s => wp_api' (by simp [rawOf, hp.wrapped, InName.op]) rfl fun _ => rfl) (fun _ _ => .api _ _)
  | compare b hfu => exact wp_compare hp hfu b
  | lengthHint => exact wp_lengthHint hp
  | str => exact wp_text hp hf (.inl rfl)
  | repr => exact wp_text hp hf (.inr rfl)

theorem wp_intSlot {p i : Nat} {w c : Val} (hp : IsProxy E I p i w c) {x : C Int} {op : POp} (hx : IntSlot E I p x op) {m : Mem} {s : St A}
    (hf : ∀ c, FieldsOf E I c m s) : Wp E I x m s (Ends (popC I.X i w c op) s (IntResult E I)) := by
  have F := hp.fits
  cases hx with
  | @setattr n a v t hn =>
    have h := wp_checkedInt hp hn (meth := "check_setattr") (k := .setattr) rfl hf (u := .setAttr) (args := [E.wrapped p, n, v])
      rfl rfl (f := fun _ => pure .none) (fun _ => rfl)
    rw [hp.wrapped, name_of hn] at h
    exact h
  | @delattr n a t hn =>
    have h := wp_checkedInt hp hn (meth := "check_setattr") (k := .setattr) rfl hf (u := .delAttr) (args := [E.wrapped p, n])
      rfl rfl (f := fun _ => pure .none) (fun _ => rfl)
    rw [hp.wrapped, name_of hn] at h
    exact h
  | setitem => exact wp_setitem hp hf
  | delitem => exact wp_delitem hp hf
  | isetitem =>
    refine .bind (.callObj (fun r m1 s1 h1 h2 h3 h4 => ?_) fun r m1 s1 h1 h2 h3 h4 => ?_)
    · obtain ⟨rfl, _, h5⟩ := h1
      refine .bind ((wp_setitem hp (h4.fields hf)).mono fun q m2 s2 ⟨res, h6, h7⟩ => .bind (.decref fun m3 h8 _ => .pure ⟨res, ?_, ?_⟩))
      · rw [h5] at h6
        exact h6
      · cases res with
        | ok v => exact h7
        | err e => exact ⟨h7.1, by rw [h8]; exact h7.2⟩
        | diverge => exact h7
    · obtain ⟨rfl, h5, _⟩ := h1
      rw [h5] at h2
      cases h2
  | idelitem =>
    refine .bind (.callObj (fun r m1 s1 h1 h2 h3 h4 => ?_) fun r m1 s1 h1 h2 h3 h4 => ?_)
    · obtain ⟨rfl, _, h5⟩ := h1
      refine .bind ((wp_delitem hp (h4.fields hf)).mono fun q m2 s2 ⟨res, h6, h7⟩ => .bind (.decref fun m3 h8 _ => .pure ⟨res, ?_, ?_⟩))
      · rw [h5] at h6
        exact h6
      · cases res with
        | ok v => exact h7
        | err e => exact ⟨h7.1, by rw [h8]; exact h7.2⟩
        | diverge => exact h7
    · obtain ⟨rfl, h5, _⟩ := h1
      rw [h5] at h2
      cases h2
  | contains =>
    exact wp_checkedInt hp (F.const _) rfl hf (by simp [rawOf, hp.wrapped]) (by decide) (f := fun r => pure (.bool (truthy I.X.W r)))
      (by intro v; simp [converted])
  | len =>
    exact wp_checkedInt hp (F.const _) rfl hf (by simp [rawOf, hp.wrapped]) (by decide) (f := asLen) (by intro v; simp [converted])
  | hash =>
    refine .callHash fun r m1 s1 h1 h2 => ?_
    have h := h1 (.special "__hash__" w []) (by simp [rawOf, hp.wrapped])
    rw [if_pos (by decide)] at h
    have hc : converted I.X (.special "__hash__") = asInt := funext fun v => by simp [converted]
    rw [hc] at h
    obtain ⟨res, h5, h6⟩ := h.elim
    refine ⟨res, h5, ?_⟩
    cases res with
    | ok v => exact h6
    | err e => exact ⟨h6.1, by rw [h2 h6.1, exnOf, h6.2]⟩
    | diverge => exact h6
  | bool =>
    exact wp_userInt (by simp [rawOf, hp.wrapped]) (by decide) (f := fun r => pure (.bool (truthy I.X.W r))) (by intro v; simp [converted])

theorem longer_objSlot {p : Nat} {x : C Ptr} {op : POp} (hx : ObjSlot E I p x op) : Along Longer x := by
  cases hx with
  | getattr => fields
  | unary => exact .check1 _ _ _ fun _ => .api _ _
  | number => exact .check1 _ _ _ fun _ => .callNumber _ _
  | call => exact .check1 _ _ _ fun _ => .api _ _
  | getitem => fields
  | igetitem => fields
  | iter => exact .check1 _ _ _ fun _ => .api _ _
  | next => fields
  | binL => exact .check2 _ _ _ _ _ fun _ _ => .api _ _
  | binR => exact .check2 _ _ _ _ _ fun _ _ => .api _ _
  | pow => fields
  | rpow => fields
  | pow3 => fields
  | inplace => exact .check2i _ _ _ _ fun _ _ => .api _ _
  | ipow => exact .check2i _ _ _ _ fun _ _ => .callIpow _ _
  | compare => fields
  | lengthHint => fields
  | str => fields
  | repr => fields

theorem longer_intSlot {p : Nat} {x : C Int} {op : POp} (hx : IntSlot E I p x op) : Along Longer x := by
  cases hx <;> fields

theorem pop_c {X : Ctx A} {v w c : Val} {i : Nat} (hi : X.impl = .c) (hv : v = .proxy i w c) (op : POp) : pop X v op = popC X i w c op := by
  subst hv
  unfold pop
  rw [hi]

end ZS.CM
