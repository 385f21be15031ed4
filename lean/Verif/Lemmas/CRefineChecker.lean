import Verif.Lemmas.CRefine

/-!
# The functions of `_zope_security_checker.c` compute what the models say
-/

namespace ZS.CM
variable {A : Type} {E : Env} {I : Interp A}

theorem m_ok {α β : Type} {x : M A α} {k : α → M A β} {s s1 : St A} {a : α} (h : x s = (.ok a, s1)) : (x >>= k) s = k a s1 := by
  show M.bind x k s = _
  unfold M.bind
  rw [h]

theorem m_err {α β : Type} {x : M A α} {k : α → M A β} {s s1 : St A} {e : Exn} (h : x s = (.err e, s1)) : (x >>= k) s = (.err e, s1) := by
  show M.bind x k s = _
  unfold M.bind
  rw [h]

theorem m_ite {α : Type} {p : Prop} [Decidable p] (x y : M A α) (s : St A) : (if p then x else y) s = if p then x s else y s := by
  split <;> rfl

theorem Fits.name (F : Fits E I) (n : String) : I.name (E.const n) = n := by
  unfold Interp.name
  rw [F.const]

theorem Fits.const_inj (F : Fits E I) {a b : String} (h : E.const a = E.const b) : a = b := by
  have := F.name a
  rw [h, F.name] at this
  exact this.symm

theorem name_of {o a : Nat} {n : String} (h : I.val o = .str a n) : I.name o = n := by
  unfold Interp.name
  rw [h]

theorem exnOf_unauthorized {r o n p : Nat} (h : I.tuple r = [o, n, p]) :
    exnOf E I (.set (E.const "Unauthorized") r) = some (.unauthorized (I.val o) (I.name n) (I.val p)) := by
  simp [exnOf, h]

theorem exnOf_forbidden (F : Fits E I) {r o n : Nat} (h : I.tuple r = [n, o]) :
    exnOf E I (.set (E.const "ForbiddenAttribute") r) = some (.forbidden (I.name n) (I.val o)) := by
  have h1 : E.const "ForbiddenAttribute" ≠ E.const "Unauthorized" := fun h => absurd (F.const_inj h) (by decide)
  simp [exnOf, h, h1]

theorem exnOf_valueError (F : Fits E I) {r : Nat} : exnOf E I (.set (E.const "ValueError") r) = some .valueError := by
  have h1 : E.const "ValueError" ≠ E.const "Unauthorized" := fun h => absurd (F.const_inj h) (by decide)
  have h2 : E.const "ValueError" ≠ E.const "ForbiddenAttribute" := fun h => absurd (F.const_inj h) (by decide)
  simp [exnOf, h1, h2]

theorem exnOf_typeError (F : Fits E I) {r : Nat} : exnOf E I (.set (E.const "TypeError") r) = some .typeError := by
  have h1 : E.const "TypeError" ≠ E.const "Unauthorized" := fun h => absurd (F.const_inj h) (by decide)
  have h2 : E.const "TypeError" ≠ E.const "ForbiddenAttribute" := fun h => absurd (F.const_inj h) (by decide)
  have h3 : E.const "TypeError" ≠ E.const "ValueError" := fun h => absurd (F.const_inj h) (by decide)
  simp [exnOf, h1, h2, h3]

/-! ## Raising -/

theorem wp_raiseUnauthorized {m : Mem} {s : St A} {p o n : Nat} {Q : Int → Mem → St A → Prop}
    (h : ∀ m', exnOf E I m'.raised = some (.unauthorized (I.val o) (I.name n) (I.val p)) → Q (-1) m' s) :
    Wp E I (raiseUnauthorized E p o n) m s Q := by
  refine .bind (.callObj (fun r m' s' h1 _ h3 h4 => ?_) fun r m' s' h1 h2 h3 h4 => ?_)
  · obtain ⟨rfl, _, h6⟩ := h1
    refine .bind (.setObject fun m2 h7 h8 => .bind (.decref fun m3 h9 h10 => .pure (h _ ?_)))
    rw [h9, h7]
    exact exnOf_unauthorized h6
  · rw [h1.2.1] at h2
    cases h2

theorem wp_raiseForbidden (F : Fits E I) {m : Mem} {s : St A} {o n : Nat} {Q : Unit → Mem → St A → Prop}
    (h : ∀ m', exnOf E I m'.raised = some (.forbidden (I.name n) (I.val o)) → Q () m' s) :
    Wp E I (raiseForbidden E o n) m s Q := by
  refine .bind (.callObj (fun r m' s' h1 _ h3 h4 => ?_) fun r m' s' h1 h2 h3 h4 => ?_)
  · obtain ⟨rfl, _, h6⟩ := h1
    refine .bind (.setObject fun m2 h7 h8 => .decref fun m3 h9 h10 => h _ ?_)
    rw [h9, h7]
    exact exnOf_forbidden F h6
  · rw [h1.2.1] at h2
    cases h2

/-! ## Asking the interaction -/

theorem slot_ok {X : Ctx A} {s s1 : St A} {v : Val} (h : slot X s = (.ok v, s1)) : s1 = s ∧ (s.threads X.tid).interaction = some v := by
  have h' : (match (s.threads X.tid).interaction with
    | none => M.throw (.attributeError "interaction")
    | some ix => pure ix : M A Val) s = (.ok v, s1) := h
  cases hi : (s.threads X.tid).interaction with
  | none => rw [hi] at h'; cases h'
  | some ix => rw [hi] at h'; cases h'; exact ⟨rfl, rfl⟩

theorem slot_err {X : Ctx A} {s s1 : St A} {e : Exn} (h : slot X s = (.err e, s1)) :
    s1 = s ∧ (s.threads X.tid).interaction = none ∧ e = .attributeError "interaction" := by
  have h' : (match (s.threads X.tid).interaction with
    | none => M.throw (.attributeError "interaction")
    | some ix => pure ix : M A Val) s = (.err e, s1) := h
  cases hi : (s.threads X.tid).interaction with
  | none => rw [hi] at h'; cases h'; exact ⟨rfl, rfl, rfl⟩
  | some ix => rw [hi] at h'; cases h'

theorem askInteraction_none {X : Ctx A} {s : St A} (p o : Val) (h : (s.threads X.tid).interaction = none) :
    askInteraction X p o s = (.err (.attributeError "interaction"), s) := by
  show (match (s.threads X.tid).interaction with
    | none => M.throw (.attributeError "interaction")
    | some ix => do
      let r ← ixCheckPermission X ix p o
      pure (truthy X.W r) : M A Bool) s = _
  rw [h]
  rfl

theorem askInteraction_some {X : Ctx A} {s : St A} {ix : Val} (p o : Val) (h : (s.threads X.tid).interaction = some ix) :
    askInteraction X p o s = (do
      let r ← ixCheckPermission X ix p o
      pure (truthy X.W r) : M A Bool) s := by
  show (match (s.threads X.tid).interaction with
    | none => M.throw (.attributeError "interaction")
    | some ix => do
      let r ← ixCheckPermission X ix p o
      pure (truthy X.W r) : M A Bool) s = _
  rw [h]

/-- The condition on a permission in the checks. -/
def permitted (X : Ctx A) (p o : Val) (n : Name) : M A Unit := do
  let b ← askInteraction X p o
  if b then pure () else M.throw (.unauthorized o n p)

theorem wp_checkPermission (F : Fits E I) {m : Mem} {s : St A} {p o n : Nat} :
    Wp E I (checkPermission E p o n) m s (Ends (permitted I.X (I.val p) (I.val o) (I.name n)) s (CheckResult E I)) := by
  refine .bind (.obj (y := slot I.X) (fun r s' h => by simpa [Explained, F.name] using h) (fun ix m1 s1 h1 h2 h3 => ?_)
    (fun e m1 s1 h1 h2 h3 => ?_))
  · obtain ⟨rfl, hs⟩ := slot_ok h1
    have ha := askInteraction_some (I.val p) (I.val o) hs
    refine .bind (.obj (y := ixCheckPermission I.X (I.val ix) (I.val p) (I.val o)) (fun r s' h => by simpa [Explained, F.name] using h)
      (fun r m2 s2 h4 h5 h6 => ?_) (fun e m2 s2 h4 h5 h6 => ?_))
    · have hp : permitted I.X (I.val p) (I.val o) (I.name n) s1 =
          (if truthy I.X.W (I.val r) then pure () else M.throw (.unauthorized (I.val o) (I.name n) (I.val p)) : M A Unit) s2 := by
        unfold permitted
        refine m_ok ?_
        rw [ha]
        exact m_ok h4
      refine .bind (.decref fun m3 h7 h8 => .bind (.callInt fun t m4 s4 h9 h10 h11 h12 => .bind (.decref fun m5 h13 h14 => ?_)))
      obtain ⟨rfl, ht⟩ := h9
      cases hb : truthy I.X.W (I.val r) with
      | true =>
        rw [hb] at ht hp
        have ht : t.num = 1 := ht
        rw [ht]
        exact .pure ⟨_, hp, Int.le_refl 0⟩
      | false =>
        rw [hb] at ht hp
        have ht : t.num = 0 := ht
        rw [ht]
        exact wp_raiseUnauthorized fun m' h => ⟨_, hp, by decide, h⟩
    · refine .bind (.decref fun m3 h7 h8 => .pure ⟨.err e, ?_, by decide, by rw [h7]; exact h5⟩)
      unfold permitted
      refine m_err ?_
      rw [ha]
      exact m_err h4
  · obtain ⟨rfl, hs, rfl⟩ := slot_err h1
    exact .pure ⟨_, m_err (askInteraction_none _ _ hs), by decide, h2⟩

/-! ## Dictionaries -/

theorem wp_lookup {m : Mem} {s : St A} {d : Ptr} {g key : Nat} {Q : Ptr → Mem → St A → Prop} (hd : FieldIs E I s g d)
    (hs : ∀ o m', (s.dicts g).get? (I.name key) = some (I.val o) → Q (some o) m' s)
    (hn : ∀ m', (s.dicts g).get? (I.name key) = none → Q .none m' s) :
    Wp E I (lookup E d key) m s Q := by
  cases d with
  | none =>
    refine .pure (hn m ?_)
    have : s.dicts g = [] := hd
    rw [this]
    rfl
  | some d =>
    obtain ⟨rfl, hc⟩ := hd
    refine .dictGet fun r m' s' h1 h2 h3 => ?_
    obtain ⟨rfl, h1⟩ := h1
    rw [if_neg hc] at h1
    cases hg : (s'.dicts (I.dict d)).get? (I.name key) with
    | none =>
      rw [hg] at h1
      have h1 : r.null = true := h1
      rw [if_pos h1]
      exact hn m' hg
    | some v =>
      rw [hg] at h1
      obtain ⟨h1, rfl⟩ : r.null = false ∧ I.val r.obj = v := h1
      rw [h1, if_neg (by decide)]
      exact hs _ m' hg

/-! ## Names -/

theorem wp_utf8 {m : Mem} {s : St A} {o a : Nat} {n : String} {Q : Ptr → Mem → St A → Prop} (h : I.val o = .str a n)
    (hq : ∀ b m', E.bytes b = n.toList → Q (some b) m' s) : Wp E I (makeString E o) m s Q := by
  refine .callObj (fun r m' s' h1 h2 h3 h4 => ?_) (fun r m' s' h1 h2 h3 h4 => ?_)
  · obtain ⟨rfl, h1⟩ := h1
    dsimp only at h1
    rw [h] at h1
    exact hq _ _ h1.2
  · obtain ⟨rfl, h1⟩ := h1
    dsimp only at h1
    rw [h] at h1
    rw [h1.1] at h2
    cases h2

theorem isDunder_iff (n : String) : isDunder n = (decide (n.toList[0]? = some '_') && decide (n.toList[1]? = some '_')) := by
  unfold isDunder
  match n.toList with
  | [] => simp
  | [a] => simp
  | a :: b :: t =>
    by_cases h1 : a = '_'
    · by_cases h2 : b = '_'
      · subst h1 h2; simp
      · subst h1
        simp only [List.getElem?_cons_zero, List.getElem?_cons_succ, decide_true, Bool.true_and, Option.some.injEq, h2, decide_false]
        split
        · rename_i h; cases h; exact absurd rfl h2
        · rfl
    · simp only [List.getElem?_cons_zero, Option.some.injEq, h1, decide_false, Bool.false_and]
      split
      · rename_i h; cases h; exact absurd rfl h1
      · rfl

theorem wp_isOperator (F : Fits E I) {m : Mem} {s : St A} {o a : Nat} {n : String} {Q : Bool → Mem → St A → Prop} (h : I.val o = .str a n)
    (hq : ∀ m', Q (isDunder n) m' s) : Wp E I (isOperator E o) m s Q := by
  refine .bind (.use (.ite (fun _ => ?_) fun hn => absurd (F.isStr o a n h) hn))
  refine .bind (wp_utf8 h fun b m1 h1 => .bind (.readText fun b' h2 => ?_))
  cases h2
  rw [h1]
  rw [isDunder_iff] at hq
  refine .ite (fun h3 => ?_) fun h3 => ?_
  · refine .bind (wp_utf8 h fun b m1 h1 => .bind (.readText fun b' h2 => ?_))
    cases h2
    rw [h1]
    simp only [h3, decide_true, Bool.true_and] at hq
    exact .pure (hq _)
  · simp only [h3, decide_false, Bool.false_and] at hq
    exact .pure (hq _)

/-! ## Checks -/

/-- The rule for undeclared names. -/
def undeclared (X : Ctx A) (o : Val) (n : Name) : M A Unit := do
  let s ← M.get
  if isDunder n then
    if n ∈ s.avail then pure ()
    else if n = "__iter__" then do
      let h ← hasattrX X o n
      if h then M.throw (.forbidden n o) else pure ()
    else M.throw (.forbidden n o)
  else M.throw (.forbidden n o)

theorem undeclared_run (X : Ctx A) (o : Val) (n : Name) (s : St A) : undeclared X o n s = (if isDunder n then
    if n ∈ s.avail then pure ()
    else if n = "__iter__" then do
      let h ← hasattrX X o n
      if h then M.throw (.forbidden n o) else pure ()
    else M.throw (.forbidden n o)
  else M.throw (.forbidden n o) : M A Unit) s := rfl

theorem toList_inj {a b : String} : a.toList = b.toList ↔ a = b := String.toList_inj

theorem wp_checkUndeclared (F : Fits E I) {m : Mem} {s : St A} {o n a : Nat} {t : String} (h : I.val n = .str a t) :
    Wp E I (checkUndeclared E o n) m s (Ends (undeclared I.X (I.val o) t) s (CheckResult E I)) := by
  have hn : I.name n = t := name_of h
  have hf : ∀ m', exnOf E I m'.raised = some (.forbidden (I.name n) (I.val o)) →
      undeclared I.X (I.val o) t s = (.err (.forbidden t (I.val o)), s) →
      Ends (undeclared I.X (I.val o) t) s (CheckResult E I) (-1) m' s := by
    intro m' h1 h2
    rw [hn] at h1
    exact ⟨_, h2, by decide, h1⟩
  refine .bind (wp_isOperator F h fun m1 => ?_)
  refine .ite (fun hd => ?_) fun hd => ?_
  · refine .bind (.callInt fun r m2 s2 h1 h2 h3 h4 => ?_)
    obtain ⟨rfl, h1⟩ := h1 rfl
    rw [hn] at h1
    by_cases hav : t ∈ s2.avail
    · have h1 : r.num = 1 := by simpa [TestAnswer, hav] using h1
      rw [h1]
      refine .pure ⟨.ok (), ?_, Int.le_refl 0⟩
      rw [undeclared_run, if_pos hd, if_pos hav]
      rfl
    · have h1 : r.num = 0 := by simpa [TestAnswer, hav] using h1
      rw [h1]
      refine .bind (wp_utf8 h fun b m3 h5 => .bind (.readText fun b' h6 => ?_))
      cases h6
      rw [h5]
      refine .ite (fun h6 => ?_) fun h6 => ?_
      · have ht : t = "__iter__" := toList_inj.mp h6
        refine .bind (.callTest fun r m4 s4 h7 h8 h9 => ?_)
        have h7 : Runs (hasattrX I.X (I.val o) (I.name n)) s2 s4 (fun res => ∃ b, res = .ok b ∧ TestAnswer r b) := h7
        rw [hn] at h7
        obtain ⟨_, h7, b, rfl, h10⟩ := h7.elim
        have hu : undeclared I.X (I.val o) t s2 = (if b then M.throw (.forbidden t (I.val o)) else pure () : M A Unit) s4 := by
          rw [undeclared_run, if_pos hd, if_neg hav, if_pos ht]
          exact m_ok h7
        cases b with
        | true =>
          have h10 : r.num = 1 := h10
          rw [h10]
          refine .bind (wp_raiseForbidden F fun m' h11 => .pure ?_)
          rw [hn] at h11
          exact ⟨_, hu, by decide, h11⟩
        | false =>
          have h10 : r.num = 0 := h10
          rw [h10]
          exact .pure ⟨_, hu, Int.le_refl 0⟩
      · have ht : t ≠ "__iter__" := fun h => h6 (toList_inj.mpr h)
        refine .bind (wp_raiseForbidden F fun m' h11 => .pure (hf _ h11 ?_))
        rw [undeclared_run, if_pos hd, if_neg hav, if_neg ht]
        rfl
  · refine .bind (wp_raiseForbidden F fun m' h11 => .pure (hf _ h11 ?_))
    rw [undeclared_run, if_neg hd]
    rfl

theorem Ends.swap {α β : Type} {y y' : M A β} {s : St A} {R : α → Mem → Res β → Prop} {a : α} {m : Mem} {s' : St A} (h : y s = y' s)
    (he : Ends y' s R a m s') : Ends y s R a m s' := by
  obtain ⟨res, h1, h2⟩ := he
  exact ⟨res, h.trans h1, h2⟩

theorem Ends.swap' {α β : Type} {y y' : M A β} {s s0 : St A} {R : α → Mem → Res β → Prop} {a : α} {m : Mem} {s' : St A}
    (he : Ends y' s R a m s') (h : y s0 = y' s) : Ends y s0 R a m s' := by
  obtain ⟨res, h1, h2⟩ := he
  exact ⟨res, h.trans h1, h2⟩

theorem wp_checkNamed (F : Fits E I) {m : Mem} {s : St A} {c o n a g st : Nat} {t : String} (h : I.val n = .str a t)
    (hc : checkerDicts (I.val c) = some (g, st)) (hf : FieldsOf E I c m s) :
    Wp E I (checkNamed E c o n) m s (Ends (plainCheckC I.X (hasattrX I.X) g (I.val o) t) s (CheckResult E I)) := by
  have hn : I.name n = t := name_of h
  have hrun : plainCheckC I.X (hasattrX I.X) g (I.val o) t s = (match (s.dicts g).get? t with
      | some p => if p = publicV then pure () else permitted I.X p (I.val o) t
      | none => undeclared I.X (I.val o) t : M A Unit) s := by
    cases hg : (s.dicts g).get? t <;> (show (match (s.dicts g).get? t with | some p => _ | none => _ : M A Unit) s = _; rw [hg]; rfl)
  refine .bind (.loadGetperms fun m1 h1 h2 => .bind (wp_lookup (hf g st hc).1 (fun p m2 h3 => ?_) fun m2 h3 => ?_))
  · rw [hn] at h3
    rw [h3] at hrun
    refine .ite (fun hp => ?_) fun hp => ?_
    · subst hp
      refine .pure ⟨.ok (), ?_, Int.le_refl 0⟩
      rw [hrun, F.checkerPublic]
      rfl
    · have : I.val p ≠ publicV := fun h => hp (F.inj _ _ (h.trans F.checkerPublic.symm))
      refine .bind ((wp_checkPermission F).mono fun i m3 s3 ⟨res, h4, h5⟩ => ?_)
      have hrun : plainCheckC I.X (hasattrX I.X) g (I.val o) t s = (res, s3) := by
        rw [hrun, ← h4, hn]
        dsimp only
        rw [if_neg this]
      cases res with
      | ok u =>
        have h5 : 0 ≤ i := h5
        rw [if_neg (by omega)]
        exact .pure ⟨_, hrun, Int.le_refl 0⟩
      | err e =>
        rw [if_pos h5.1]
        exact .pure ⟨_, hrun, by decide, h5.2⟩
      | diverge => exact h5.elim
  · rw [hn] at h3
    rw [h3] at hrun
    exact (wp_checkUndeclared F h).mono fun i m3 s3 he => he.swap hrun

theorem wp_checkInt (F : Fits E I) {m : Mem} {s : St A} {c o n a g st : Nat} {t : String} (h : I.val n = .str a t)
    (hc : checkerDicts (I.val c) = some (g, st)) (hf : FieldsOf E I c m s) :
    Wp E I (checkInt E c o (some n)) m s (Ends (plainCheckC I.X (hasattrX I.X) g (I.val o) t) s (CheckResult E I)) :=
  .bind (.deref fun b hb => by cases hb; exact wp_checkNamed F h hc hf)

theorem Intact.field {m m' : Mem} {s : St A} {c : Nat} (h : Intact m m') (hf : FieldsOf E I c m s) : FieldsOf E I c m' s := by
  intro g st hc
  rw [h.1, h.2]
  exact hf g st hc

theorem wp_checkerCheck (F : Fits E I) {m : Mem} {s : St A} {c o n a g st : Nat} {t : String} (h : I.val n = .str a t)
    (hc : checkerDicts (I.val c) = some (g, st)) (hf : FieldsOf E I c m s) :
    Wp E I (checkerCheck E c o n) m s (Ends (plainCheckC I.X (hasattrX I.X) g (I.val o) t) s (NoneResult E I)) := by
  refine .bind (.parse fun m1 h1 h2 => ?_)
  rw [if_pos rfl]
  refine .bind ((wp_checkInt F h hc (h2.field hf)).mono fun i m2 s2 ⟨res, h3, h4⟩ => ?_)
  cases res with
  | ok u =>
    have h4 : 0 ≤ i := h4
    rw [if_neg (by omega)]
    exact .returnNone fun m3 _ _ => ⟨_, h3, rfl⟩
  | err e =>
    rw [if_pos h4.1]
    exact .pure ⟨_, h3, rfl, h4.2⟩
  | diverge => exact h4.elim

theorem wp_checkerCheckSetattr (F : Fits E I) {m : Mem} {s : St A} {c o n a g st : Nat} {t : String} (h : I.val n = .str a t)
    (hc : checkerDicts (I.val c) = some (g, st)) (hf : FieldsOf E I c m s) :
    Wp E I (checkerCheckSetattr E c o n) m s (Ends (plainSetattrC I.X st (I.val o) t) s (NoneResult E I)) := by
  have hn : I.name n = t := name_of h
  have hrun : plainSetattrC I.X st (I.val o) t s = (match (s.dicts st).get? t with
      | some p => if p = publicV then pure () else permitted I.X p (I.val o) t
      | none => M.throw (.forbidden t (I.val o)) : M A Unit) s := by
    cases hg : (s.dicts st).get? t <;> (show (match (s.dicts st).get? t with | some p => _ | none => _ : M A Unit) s = _; rw [hg]; try rfl)
  refine .bind (.parse fun m0 h1 h2 => ?_)
  rw [if_pos rfl]
  refine .bind (.loadSetperms fun m1 h1 h2' => .bind (wp_lookup (h2.field hf g st hc).2 (fun p m2 h3 => ?_) fun m2 h3 => ?_))
  · rw [hn] at h3
    rw [h3] at hrun
    refine .ite (fun hp => ?_) fun hp => ?_
    · subst hp
      refine .returnNone fun m3 _ _ => ⟨.ok (), ?_, rfl⟩
      rw [hrun, F.checkerPublic]
      rfl
    · have : I.val p ≠ publicV := fun h => hp (F.inj _ _ (h.trans F.checkerPublic.symm))
      refine .bind ((wp_checkPermission F).mono fun i m3 s3 ⟨res, h4, h5⟩ => ?_)
      have hrun : plainSetattrC I.X st (I.val o) t s = (res, s3) := by
        rw [hrun, ← h4, hn]
        dsimp only
        rw [if_neg this]
      cases res with
      | ok u =>
        have h5 : 0 ≤ i := h5
        rw [if_neg (by omega)]
        exact .returnNone fun m3 _ _ => ⟨_, hrun, rfl⟩
      | err e =>
        rw [if_pos h5.1]
        exact .pure ⟨_, hrun, rfl, h5.2⟩
      | diverge => exact h5.elim
  · rw [hn] at h3
    rw [h3] at hrun
    refine .bind (wp_raiseForbidden F fun m' h11 => .pure ⟨_, hrun, rfl, ?_⟩)
    rw [hn] at h11
    exact h11

theorem getD_lookupPy (d : PyDict Name Val) (n : Name) : (lookupPy d n).getD .none = (d.get? n).getD .none := by
  unfold lookupPy
  cases h : d.get? n with
  | none => rfl
  | some v => cases v <;> rfl

/-- `permission_id` as a computation. -/
def permissionIdM (c : Val) (n : Name) : M A Val := do
  let s ← M.get
  pure ((ZS.permissionId s c n).getD .none)

/-- `setattr_permission_id` as a computation. -/
def setattrPermissionIdM (c : Val) (n : Name) : M A Val := do
  let s ← M.get
  pure ((ZS.setattrPermissionId s c n).getD .none)

theorem permissionId_dict {s : St A} {c : Val} {g st : Nat} (n : Name) (hc : checkerDicts c = some (g, st)) :
    (ZS.permissionId s c n).getD .none = ((s.dicts g).get? n).getD .none := by
  cases c <;> cases hc <;> exact getD_lookupPy _ _

theorem setattrPermissionId_dict {s : St A} {c : Val} {g st : Nat} (n : Name) (hc : checkerDicts c = some (g, st)) :
    (ZS.setattrPermissionId s c n).getD .none = ((s.dicts st).get? n).getD .none := by
  cases c <;> cases hc <;> exact getD_lookupPy _ _

theorem wp_permissionId (F : Fits E I) {m : Mem} {s : St A} {c n g st : Nat}
    (hc : checkerDicts (I.val c) = some (g, st)) (hf : FieldsOf E I c m s) :
    Wp E I (permissionId E c n) m s (Ends (permissionIdM (I.val c) (I.name n)) s (ObjResult E I)) := by
  have hrun : permissionIdM (I.val c) (I.name n) s = (.ok (((s.dicts g).get? (I.name n)).getD .none), s) := by
    rw [← permissionId_dict _ hc]
    rfl
  refine .bind (.loadGetperms fun m1 h1 h2 => .bind (wp_lookup (hf g st hc).1 (fun p m2 h3 => ?_) fun m2 h3 => ?_))
  · rw [h3] at hrun
    exact .bind (.incref fun m3 _ _ => .pure ⟨_, hrun, _, rfl, rfl⟩)
  · rw [h3] at hrun
    exact .bind (.incref fun m3 _ _ => .pure ⟨_, hrun, _, rfl, F.none⟩)

theorem wp_setattrPermissionId (F : Fits E I) {m : Mem} {s : St A} {c n g st : Nat}
    (hc : checkerDicts (I.val c) = some (g, st)) (hf : FieldsOf E I c m s) :
    Wp E I (setattrPermissionId E c n) m s (Ends (setattrPermissionIdM (I.val c) (I.name n)) s (ObjResult E I)) := by
  have hrun : setattrPermissionIdM (I.val c) (I.name n) s = (.ok (((s.dicts st).get? (I.name n)).getD .none), s) := by
    rw [← setattrPermissionId_dict _ hc]
    rfl
  refine .bind (.loadSetperms fun m1 h1 h2 => .bind (wp_lookup (hf g st hc).2 (fun p m2 h3 => ?_) fun m2 h3 => ?_))
  · rw [h3] at hrun
    exact .bind (.incref fun m3 _ _ => .pure ⟨_, hrun, _, rfl, rfl⟩)
  · rw [h3] at hrun
    exact .bind (.incref fun m3 _ _ => .pure ⟨_, hrun, _, rfl, F.none⟩)

/-! ## Choosing a checker -/

theorem selectLoop_checker (X : Ctx A) (o c : Val) (k : Nat) (h : c.isChecker = true) : ZS.selectLoop X o k c = pure c := by
  unfold ZS.selectLoop
  rw [if_pos h]

theorem selectLoop_succ (X : Ctx A) (o c : Val) (k : Nat) (h : ¬c.isChecker = true) : ZS.selectLoop X o (k + 1) c = (do
    let c' ← callFactory X c o
    if c' = .noProxy ∨ c' = .none then pure .none
    else ZS.selectLoop X o k c') := by
  rw [ZS.selectLoop, if_neg h]

theorem Fits.eq_iff (F : Fits E I) {a b : Nat} {v : Val} (h : I.val b = v) : a = b ↔ I.val a = v :=
  ⟨fun hab => by rw [hab, h], fun ha => F.inj _ _ (ha.trans h.symm)⟩

theorem wp_selectLoop (F : Fits E I) {o : Nat} : ∀ (fuel k : Nat) (c : Nat) (m : Mem) (s : St A), fuel ≤ k →
    Wp E I (selectLoop E o fuel c) m s (Ends (ZS.selectLoop I.X (I.val o) k (I.val c)) s (ObjResult E I)) := by
  intro fuel
  induction fuel with
  | zero => intro k c m s _ a m' l s' h; cases h
  | succ fuel ih =>
    intro k c m s hk
    obtain ⟨k, rfl⟩ : ∃ j, k = j + 1 := ⟨k - 1, by omega⟩
    refine .bind (.use (.ite (fun hc => ?_) fun hc => ?_))
    · rw [F.isChecker] at hc
      refine .pure ⟨.ok (I.val c), ?_, _, rfl, rfl⟩
      rw [selectLoop_checker _ _ _ _ hc]
      rfl
    · rw [F.isChecker] at hc
      refine .bind (.obj (y := callFactory I.X (I.val c) (I.val o)) (fun r s' h => h) (fun c' m1 s1 h1 h2 h3 => ?_)
        fun e m1 s1 h1 h2 h3 => ?_)
      · refine .bind (.decref fun m2 h4 h5 => ?_)
        have hrun : ZS.selectLoop I.X (I.val o) (k + 1) (I.val c) s = (if I.val c' = .noProxy ∨ I.val c' = .none then pure .none
            else ZS.selectLoop I.X (I.val o) k (I.val c') : M A Val) s1 := by
          rw [selectLoop_succ _ _ _ _ hc]
          exact m_ok h1
        refine .ite (fun hn => ?_) fun hn => ?_
        · rw [F.eq_iff F.noProxy, F.eq_iff F.none] at hn
          rw [if_pos hn] at hrun
          exact .bind (.decref fun m3 _ _ => .returnNone fun m4 _ _ => ⟨_, hrun, _, rfl, F.none⟩)
        · rw [F.eq_iff F.noProxy, F.eq_iff F.none] at hn
          rw [if_neg hn] at hrun
          refine (ih k c' m2 s1 (by omega)).mono fun a m3 s3 ⟨res, h6, h7⟩ => ?_
          exact ⟨res, hrun.trans h6, h7⟩
      · refine .bind (.decref fun m2 h4 h5 => .pure ⟨.err e, ?_, rfl, by rw [h4]; exact h2⟩)
        rw [selectLoop_succ _ _ _ _ hc]
        exact m_err h1

theorem wp_isUnprotectedException (F : Fits E I) {m : Mem} {s : St A} {c o : Nat} {Q : Bool → Mem → St A → Prop}
    (h : ∀ m', Q (decide (I.val c = defaultChecker ∧ I.X.W.isExc (I.val o))) m' s) :
    Wp E I (isUnprotectedException E c o) m s Q := by
  refine .ite (fun hc => ?_) fun hc => ?_
  · rw [F.eq_iff F.defaultChecker] at hc
    refine .bind (.callInt fun r m1 s1 h1 h2 h3 h4 => .pure ?_)
    obtain ⟨rfl, h5⟩ := h1 rfl
    have : decide (r.num ≠ 0) = decide (I.val c = defaultChecker ∧ I.X.W.isExc (I.val o)) := by
      have h1 : r.num = if I.X.W.isExc (I.val o) then 1 else 0 := h5
      rw [h1]
      cases hb : I.X.W.isExc (I.val o) <;> simp [hc]
    rw [this]
    exact h _
  · rw [F.eq_iff F.defaultChecker] at hc
    refine .pure ?_
    have := h m
    rwa [decide_eq_false (fun h => hc h.1)] at this

theorem wp_selectChecker (F : Fits E I) {m : Mem} {s : St A} {o fuel : Nat} (hf : fuel ≤ I.X.fuel) :
    Wp E I (selectChecker E fuel o) m s (Ends (selectC I.X (I.val o)) s (ObjResult E I)) := by
  refine .bind (.use (.bind (.dictGet fun r m1 s1 h1 h2 h3 => ?_)))
  obtain ⟨rfl, h1⟩ := h1
  rw [if_pos rfl, F.typeOf] at h1
  have hreg : I.val ((if r.null = true then none else some r.obj : Ptr).getD E.defaultChecker) = regEntry I.X.W s1 (I.val o) := by
    unfold regEntry
    dsimp only at h1
    cases hg : s1.reg.get? (.ty (typeOf I.X.W (I.val o))) with
    | none =>
      rw [hg] at h1
      have h1 : r.null = true := h1
      rw [if_pos h1]
      exact F.defaultChecker
    | some v =>
      rw [hg] at h1
      obtain ⟨h1, rfl⟩ : r.null = false ∧ I.val r.obj = v := h1
      rw [if_neg (by rw [h1]; decide)]
      rfl
  dsimp only
  generalize hp : (if r.null = true then none else some r.obj : Ptr).getD E.defaultChecker = c at hreg ⊢
  have hrun : selectC I.X (I.val o) s1 = (if I.val c = .noProxy then pure .none
      else if I.val c = defaultChecker ∧ I.X.W.isExc (I.val o) then pure .none
      else ZS.selectLoop I.X (I.val o) I.X.fuel (I.val c) : M A Val) s1 := by
    rw [hreg]
    rfl
  refine .ite (fun hc => ?_) fun hc => ?_
  · rw [F.eq_iff F.noProxy] at hc
    rw [if_pos hc] at hrun
    exact .returnNone fun m4 _ _ => ⟨_, hrun, _, rfl, F.none⟩
  · rw [F.eq_iff F.noProxy] at hc
    rw [if_neg hc] at hrun
    refine .bind (wp_isUnprotectedException F fun m2 => .ite (fun he => ?_) fun he => ?_)
    · rw [if_pos (by simpa using he)] at hrun
      exact .returnNone fun m4 _ _ => ⟨_, hrun, _, rfl, F.none⟩
    · rw [if_neg (by simpa using he)] at hrun
      refine .bind (.incref fun m3 _ _ => (wp_selectLoop F fuel I.X.fuel c m3 s1 hf).mono fun a m4 s4 ⟨res, h6, h7⟩ => ?_)
      exact ⟨res, hrun.trans h6, h7⟩

/-! ## Proxies -/

theorem wp_makeProxy {m : Mem} {s : St A} {v c : Nat} :
    Wp E I (makeProxy E v c) m s (Ends (newProxy (I.val v) (I.val c)) s (ObjResult E I)) := by
  refine .bind (.obj (y := newProxy (I.val v) (I.val c)) (fun r s' h => h rfl) (fun o m1 s1 h1 h2 h3 => ?_) fun e m1 s1 h1 h2 h3 => ?_)
  · exact .bind (.decref fun m2 _ _ => .pure ⟨_, h1, _, rfl, rfl⟩)
  · exact .bind (.decref fun m2 h4 _ => .pure ⟨_, h1, rfl, by rw [h4]; exact h2⟩)

theorem proxyC_run (X : Ctx A) (v : Val) (s : St A) (h : ¬v.isProxy = true) : proxyC X v s =
    match getSC X v s with
    | (.ok c, s1) => if c = .none then (.err .valueError, s1) else newProxy v c s1
    | (.err _, s1) => (do
        let c ← ZS.selectChecker X v
        if c = .none then pure v else newProxy v c : M A Val) s1
    | (.diverge, s1) => (.diverge, s1) := by
  exact congrFun (if_neg h) s

theorem wp_checkerProxy (F : Fits E I) {m : Mem} {s : St A} {v fuel : Nat} (hf : fuel ≤ I.X.fuel) :
    Wp E I (checkerProxy E fuel v) m s (Ends (proxyC I.X (I.val v)) s (ObjResult E I)) := by
  refine .bind (.use (.ite (fun hp => ?_) fun hp => ?_))
  · rw [F.exactProxy] at hp
    refine .bind (.incref fun m1 _ _ => .pure ⟨.ok (I.val v), ?_, _, rfl, rfl⟩)
    exact congrFun (if_pos hp) s
  · rw [F.exactProxy] at hp
    have hrun := proxyC_run I.X (I.val v) s hp
    refine .bind (.obj (y := getSC I.X (I.val v)) (fun r s' h => by simpa [Explained, F.name] using h) (fun c m1 s1 h1 h2 h3 => ?_)
      fun e m1 s1 h1 h2 h3 => ?_)
    · rw [h1] at hrun
      dsimp only at hrun
      refine .ite (fun hc => ?_) fun hc => ?_
      · rw [F.eq_iff F.none] at hc
        rw [if_pos hc] at hrun
        refine .bind (.callObj (fun r m' s' h1 _ h3 h4 => ?_) fun r m' s' h1 h2 h3 h4 => ?_)
        · obtain ⟨rfl, _, h6⟩ := h1
          refine .bind (.setObject fun m2 h7 h8 => .bind (.decref fun m3 h9 h10 => .pure ⟨_, hrun, rfl, ?_⟩))
          rw [h9, h7]
          exact exnOf_valueError F
        · rw [h1.2.1] at h2
          cases h2
      · rw [F.eq_iff F.none] at hc
        rw [if_neg hc] at hrun
        exact wp_makeProxy.mono fun a m2 s2 ⟨res, h4, h5⟩ => ⟨res, hrun.trans h4, h5⟩
    · rw [h1] at hrun
      dsimp only at hrun
      have hsel : ZS.selectChecker I.X (I.val v) = selectC I.X (I.val v) := by
        unfold ZS.selectChecker
        rw [F.impl]
      rw [hsel] at hrun
      refine .bind (.clearErr fun m2 _ _ => .bind ((wp_selectChecker F hf).mono fun p m3 s3 ⟨res, h4, h5⟩ => ?_))
      cases res with
      | ok c =>
        obtain ⟨o, rfl, rfl⟩ := h5
        rw [m_ok h4] at hrun
        refine .ite (fun hc => ?_) fun hc => ?_
        · rw [F.eq_iff F.none] at hc
          rw [if_pos hc] at hrun
          exact .bind (.decref fun m4 _ _ => .bind (.incref fun m5 _ _ => .pure ⟨_, hrun, _, rfl, rfl⟩))
        · rw [F.eq_iff F.none] at hc
          rw [if_neg hc] at hrun
          exact wp_makeProxy.mono fun a m2 s2 ⟨res, h4, h5⟩ => ⟨res, hrun.trans h4, h5⟩
      | err e =>
        obtain ⟨rfl, h5⟩ := h5
        rw [m_err h4] at hrun
        exact .pure ⟨_, hrun, rfl, h5⟩
      | diverge => exact h5.elim

end ZS.CM
