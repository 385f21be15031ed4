import Verif.Lemmas.CLogs

/-!
# The log of a check
-/

namespace ZS.CM
variable {α : Type} {E : Env}

/-- Where nothing is carried out for the user, what else is known of the log remains. -/
theorem Leaves.and_quiet {x : C α} {m : Mem} {P : α → List Ask → Prop} (h : Leaves x m P) (hq : Quiet x) :
    Leaves x m fun a l => P a l ∧ NoUser l := by
  intro a m' hx
  obtain ⟨h1, l, h2, h3⟩ := h a m' hx
  obtain ⟨-, l', h4, h5⟩ := hq m a m' hx
  have : l = l' := List.reverse_inj.1 (List.append_cancel_right (h2.symm.trans h4))
  exact ⟨h1, l, h2, h3, this ▸ h5⟩

theorem leaves_lookup {m : Mem} {d : Ptr} {name : Nat} {P : Ptr → List Ask → Prop} (hn : ∀ l, Missing name d l → P .none l)
    (ho : ∀ d' e r, d = some d' → r.null = false → P (some r.obj) [⟨.dictGet, [d', name], e, r⟩]) : Leaves (lookup E d name) m P := by
  cases d with
  | none => exact .pure (hn _ .noDict)
  | some d => exact .dictGet (fun e r h => hn _ (.notFound h)) fun e r h => ho d e r rfl h

theorem leaves_isOperator {m : Mem} {name : Nat} {P : Bool → List Ask → Prop} (hf : ∀ l, P false l)
    (ht : ∀ e1 r1 e2 r2, E.isStr name = true → r1.null = false → (E.bytes r1.obj)[0]? = some '_' → r2.null = false →
      (E.bytes r2.obj)[1]? = some '_' → P true [⟨.utf8, [name], e1, r1⟩, ⟨.utf8, [name], e2, r2⟩]) : Leaves (isOperator E name) m P := by
  refine .bind (.use fun _ _ => .ite (fun hs => ?_) fun _ => .pure (hf _))
  refine .bind (.makeString (fun _ _ _ _ _ => .bind .readNull) fun e1 r1 h1 _ _ => .bind (.readText fun _ _ => ?_))
  refine .ite (fun hc => ?_) fun _ => .pure (hf _)
  refine .bind (.makeString (fun _ _ _ _ _ => .bind .readNull) fun e2 r2 h2 _ _ => .bind (.readText fun _ _ => .pure ?_))
  by_cases hc2 : (E.bytes r2.obj)[1]? = some '_'
  · rw [decide_eq_true hc2]
    exact ht e1 r1 e2 r2 hs h1 hc h2 hc2
  · rw [decide_eq_false hc2]
    exact hf _

theorem leaves_fails {m : Mem} {x : C Unit} (hx : Quiet x) {P : Int → List Ask → Prop} (h : ∀ l, P (-1) l) : Leaves (do x; pure (-1)) m P :=
  .bind ((hx m).mono fun _ _ _ _ _ => .pure (h _))

theorem leaves_checkUndeclared {m : Mem} {object name : Nat} {perms : Ptr} {l : List Ask} (hl : Missing name perms l) :
    Leaves (checkUndeclared E object name) m fun i l' => 0 ≤ i → Grants E object name perms (l ++ l') := by
  have hneg : ∀ l' : List Ask, (0 : Int) ≤ -1 → Grants E object name perms (l ++ l') := fun _ h => absurd h (by decide)
  refine .bind (leaves_isOperator (fun l' m' _ => leaves_fails (.raiseForbidden _ _) fun _ => hneg _)
    fun e1 r1 e2 r2 hs h1 hc1 h2 hc2 _ _ => ?_)
  refine .bind (.callInt fun e3 r3 _ _ => ?_)
  refine .ite (fun _ => .pure (hneg _)) fun hlt => .ite (fun hne => .pure fun _ => ?_) fun he => ?_
  · exact .available hl hs h1 hc1 h2 hc2 (by omega)
  · refine .bind (.makeString (fun _ _ _ _ _ => .bind .readNull) fun e4 r4 h4 _ _ => .bind (.readText fun _ _ => ?_))
    refine .ite (fun ht => ?_) fun _ => leaves_fails (.raiseForbidden _ _) fun _ => hneg _
    refine .bind (.callTest fun e5 r5 _ _ => .ite (fun _ => leaves_fails (.raiseForbidden _ _) fun _ => hneg _) fun hh => .pure fun _ => ?_)
    exact .noIter hl hs h1 hc1 h2 hc2 (by omega) h4 ht (by simpa using hh)

theorem leaves_checkPermission {m : Mem} {permission object name : Nat} {P : Int → List Ask → Prop} (hn : ∀ i l, i < 0 → P i l)
    (hp : ∀ e2 r2 e3 r3 e4 r4 e5 r5 e6 r6, r2.null = false → r3.null = false → 0 < r5.num →
      P 0 [⟨.getAttr, [E.threadLocal, E.const "interaction"], e2, r2⟩,
        ⟨.callMethod, [r2.obj, E.const "checkPermission", permission, object], e3, r3⟩, ⟨.destroy, [r2.obj], e4, r4⟩,
        ⟨.isTrue, [r3.obj], e5, r5⟩, ⟨.destroy, [r3.obj], e6, r6⟩]) : Leaves (checkPermission E permission object name) m P := by
  have hneg : ∀ l, P (-1) l := fun l => hn _ l (by decide)
  refine .bind (.callObj (fun e r h _ _ => .pure (hneg _)) fun e2 r2 h2 _ _ => ?_)
  refine .bind (.callObj (fun e r h _ _ => .bind (.decref fun _ _ _ _ => .pure (hneg _))) fun e3 r3 h3 _ _ => ?_)
  refine .bind (.decref fun e4 r4 _ _ => .bind (.callInt fun e5 r5 _ _ => .bind (.decref fun e6 r6 _ _ => ?_)))
  refine .ite (fun _ => .pure (hneg _)) fun hlt => .ite (fun hne => .pure ?_) fun _ => ?_
  · exact hp e2 r2 e3 r3 e4 r4 e5 r5 e6 r6 h2 h3 (by omega)
  · refine .bind (.callObj (fun _ _ _ _ _ => .pure (hneg _)) fun _ r _ _ _ => ?_)
    refine .bind ((Quiet.setObject (E := E) _ _ _).mono fun _ _ _ _ _ => .bind (.decref fun _ _ _ _ => .pure (hneg _)))

theorem leaves_checkNamed {m : Mem} {c object name : Nat} :
    Leaves (checkNamed E c object name) m fun i l => 0 ≤ i → Grants E object name (m.getperms c) l := by
  have hneg : ∀ l : List Ask, (0 : Int) ≤ -1 → Grants E object name (m.getperms c) l := fun _ h => absurd h (by decide)
  refine .bind (.loadGetperms fun _ _ => .bind (leaves_lookup (fun l hl _ _ => leaves_checkUndeclared hl) fun d e1 r1 hd h1 _ _ => ?_))
  rw [hd] at hneg ⊢
  refine .ite (fun hp => .pure fun _ => .isPublic h1 hp) fun hp => ?_
  refine .bind (leaves_checkPermission (fun i l hi _ _ => .ite (fun _ => .pure (hneg _)) fun h => absurd hi h)
    fun e2 r2 e3 r3 e4 r4 e5 r5 e6 r6 h2 h3 h5 _ _ => .ite (fun h => absurd h (by decide)) fun _ => .pure fun _ => ?_)
  exact .permitted h1 hp h2 h3 h5

theorem leaves_check (m : Mem) (self : Nat) (meth : String) (name : Nat) :
    Leaves (check E self meth name) m fun i l => (0 ≤ i → Passes E m self meth name l) ∧ NoUser l := by
  refine Leaves.and_quiet ?_ (.check _ _ _)
  have hm : meth = "check_setattr" ∨ E.assSlot (E.checkerOf self) = .absent → Leaves (do
      let r ← callObj E .api .callMethod [E.checkerOf self, E.const meth, E.wrapped self, name]
      match r with
      | .none => pure (-1)
      | some r => do
        decref E r
        pure 0) m fun (i : Int) l => 0 ≤ i → Passes E m self meth name l := by
    intro hc
    refine .bind (.callObj (fun _ _ _ _ _ => .pure fun h => absurd h (by decide)) fun e1 r1 h1 _ _ => ?_)
    exact .bind (.decref fun e2 r2 _ _ => .pure fun _ => .method hc h1)
  unfold check
  refine .ite (fun h => hm (.inl h)) fun h => ?_
  split
  · exact hm (.inr ‹_›)
  · exact leaves_checkNamed.mono fun i l hi h0 => .native h ‹_› (hi h0)
  · exact .callInt fun e r h0 => .slot h ‹_› h0

/-- After a check that passes. -/
theorem leaves_after {m : Mem} {self : Nat} {meth : String} {name : Nat} {x y : C α} {Q : α → List Ask → Prop}
    (hy : ∀ l, NoUser l → ∀ m', m'.getperms = m.getperms → Leaves y m' fun a l' => Q a (l ++ l'))
    (hx : ∀ l, Passes E m self meth name l → NoUser l → ∀ m', m'.getperms = m.getperms → Leaves x m' fun a l' => Q a (l ++ l')) :
    Leaves (do
      let i ← check E self meth name
      if 0 ≤ i then x else y) m Q :=
  .bind ((leaves_check m self meth name).mono fun _ l hl m' hm => .ite (fun h => hx l (hl.1 h) hl.2 m' hm) fun _ => hy l hl.2 m' hm)

/-! ## The log of `Checker_proxy` -/

theorem leaves_returnNone {m : Mem} {P : Ptr → List Ask → Prop} (h : P (some E.none) []) : Leaves (returnNone E) m P :=
  .bind (.incref fun _ _ => .pure h)

theorem leaves_selectLoop {v : Nat} {Q : Ptr → List Ask → Prop} (h0 : ∀ l, Q .none l) (fuel : Nat) : ∀ {m : Mem} {c : Nat} {l : List Ask},
    (∀ c' l', Chain E v c c' l' → Q (some c') (l ++ l')) → (∀ l', Declines E v c l' → Q (some E.none) (l ++ l')) →
    Leaves (selectLoop E v fuel c) m fun p l' => Q p (l ++ l') := by
  induction fuel with
  | zero => intro m c l _ _ a m' hx; cases hx
  | succ n ih =>
    intro m c l hc hd
    refine .bind (.use fun _ _ => .ite (fun hi => .pure (by simpa using hc c [] (.done hi))) fun hi => ?_)
    have hi : E.isChecker c = false := Bool.eq_false_iff.2 hi
    refine .bind (.callObj (fun _ _ _ _ _ => .bind (.decref fun _ _ _ _ => .pure (h0 _))) fun e1 r1 h1 _ _ => .bind (.decref fun e2 r2 _ _ => ?_))
    refine .ite (fun hn => .bind (.decref fun e3 r3 _ _ => leaves_returnNone (by simpa using hd _ (.last hi h1 hn)))) fun hn => ?_
    have hn := not_or.1 hn
    refine (ih (l := l ++ [⟨.call, [c, v], e1, r1⟩, ⟨.destroy, [c], e2, r2⟩]) (fun c' l' hl => ?_) fun l' hl => ?_).mono fun p l' hp => ?_
    · simpa using hc c' _ (.step hi h1 hn.1 hn.2 hl)
    · simpa using hd _ (.step hi h1 hn.1 hn.2 hl)
    · simpa using hp

theorem leaves_selectChecker {m : Mem} {v fuel : Nat} {Q : Ptr → List Ask → Prop} (h0 : ∀ l, Q .none l)
    (hs : ∀ c c' l l', Registered E v c l → Chain E v c c' l' → Q (some c') (l ++ l')) (hx : ∀ l, Exempt E v l → Q (some E.none) l) :
    Leaves (selectChecker E fuel v) m Q := by
  have loop : ∀ {m' : Mem} {c l}, Registered E v c l → Leaves (do incref E c; selectLoop E v fuel c) m' fun p l' => Q p (l ++ l') := fun hr =>
    .bind (.incref fun _ _ => leaves_selectLoop h0 _ (fun c' l' hl => hs _ _ _ _ hr hl) fun l' hl => hx _ (.declined hr hl))
  have dflt : ∀ {m' : Mem} {e1 r1}, r1.null = true ∨ r1.obj = E.defaultChecker → E.defaultChecker ≠ E.noProxy → Leaves (do
      let exc ← isUnprotectedException E E.defaultChecker v
      if exc then returnNone E
      else do
        incref E E.defaultChecker
        selectLoop E v fuel E.defaultChecker) m' fun p l' => Q p ([⟨.dictGet, [E.checkers, E.typeOf v], e1, r1⟩] ++ l') := by
    intro m' e1 r1 h1 hne
    unfold isUnprotectedException
    rw [if_pos rfl]
    refine .bind (.bind (.callInt fun e2 r2 _ _ => .pure fun _ _ => ?_))
    by_cases hz : r2.num = 0
    · refine .ite (fun h => absurd hz (by simpa using h)) fun _ => ?_
      exact (loop (.byDefault (e1 := e1) (e2 := e2) h1 hne hz)).mono fun p l' h => by simpa using h
    · exact .ite (fun _ => leaves_returnNone (hx _ (.exception h1 hz))) fun h => absurd hz (by simpa using h)
  refine .bind (.use fun _ _ => .bind (.dictGet (fun e1 r1 h1 _ _ => ?_) fun e1 r1 h1 _ _ => ?_))
  · refine .ite (fun hn => leaves_returnNone (hx _ (.noProxy ?_))) fun hn => dflt (.inl h1) hn
    rw [if_pos h1]
    exact hn
  · refine .ite (fun hn => leaves_returnNone (hx _ (.noProxy ?_))) fun hn => ?_
    · rw [if_neg (by simp [h1])]
      exact hn
    · by_cases hd : r1.obj = E.defaultChecker
      · have := dflt (m' := ‹Mem›) (e1 := e1) (r1 := r1) (.inr hd) (hd ▸ hn)
        rw [← hd] at this
        exact this
      · unfold isUnprotectedException
        rw [if_neg (by exact hd)]
        exact .bind (.pure fun _ _ => .ite (fun h => nomatch h) fun _ => loop (.found h1 hn hd))

theorem leaves_makeProxy {m : Mem} {v c : Nat} {Q : Ptr → List Ask → Prop} (h0 : ∀ l, Q .none l)
    (h : ∀ e1 r1 e2 r2, r1.null = false → Q (some r1.obj) [⟨.call, [E.proxyType, v, c], e1, r1⟩, ⟨.destroy, [c], e2, r2⟩]) :
    Leaves (makeProxy E v c) m Q :=
  .bind (.callObj (fun _ _ _ _ _ => .bind (.decref fun _ _ _ _ => .pure (h0 _))) fun e1 r1 h1 _ _ => .bind (.decref fun e2 r2 _ _ => .pure (h e1 r1 e2 r2 h1)))

theorem Chain.isChecker {v c c' : Nat} {l : List Ask} (h : Chain E v c c' l) : E.isChecker c' = true := by
  induction h with
  | done h => exact h
  | step _ _ _ _ _ ih => exact ih

theorem leaves_checkerProxy (hnone : E.isChecker E.none = false) {m : Mem} {v fuel : Nat} : Leaves (checkerProxy E fuel v) m (Wraps E v) := by
  refine .bind (.use fun _ _ => .ite (fun h => .bind (.incref fun _ _ => .pure (.already h))) fun hx => ?_)
  have hx : E.exactProxy v = false := Bool.eq_false_iff.2 hx
  refine .bind (.callObj (fun e1 r1 h1 _ _ => .bind (.setErr fun _ _ => .bind ?_)) fun e1 r1 h1 _ _ => ?_)
  · refine leaves_selectChecker (fun l _ _ => .pure .failed) (fun c c' l l' hr hc _ _ => ?_) fun l hl _ _ => ?_
    · refine .ite (fun h => ?_) fun _ => leaves_makeProxy (fun _ => .failed) fun e2 r2 e3 r3 h2 => ?_
      · have := hc.isChecker
        rw [h, hnone] at this
        cases this
      · have := Wraps.selected (e1 := e1) (e2 := e2) (e3 := e3) (r3 := r3) hx h1 hr hc h2
        simpa using this
    · refine .ite (fun h => .bind (.decref fun e2 r2 _ _ => .bind (.incref fun _ _ => .pure ?_))) fun h => absurd rfl h
      have := Wraps.bare (e1 := e1) (e2 := e2) (r2 := r2) hx h1 hl
      simpa using this
  · refine .ite (fun h => ?_) fun hn => leaves_makeProxy (fun _ => .failed) fun e2 r2 e3 r3 h2 => .own hx h1 hn h2
    refine .bind (.callObj (fun _ _ _ _ _ => .pure .failed) fun _ r _ _ _ => ?_)
    exact .bind ((Quiet.setObject (E := E) _ _ _).mono fun _ _ _ _ _ => .bind (.decref fun _ _ _ _ => .pure .failed))

theorem leaves_protect (hnone : E.isChecker E.none = false) {m : Mem} {self v fuel : Nat} : Leaves (protect E fuel self v) m (Covers E self v) := by
  unfold protect
  split
  · exact (leaves_checkerProxy hnone).mono fun p l h => .native ‹_› h
  · refine .callObj (fun e r h => ?_) fun e r h => ?_
    · simpa [h] using Covers.slot (self := self) (v := v) (e := e) (r := r) ‹_›
    · simpa [h] using Covers.slot (self := self) (v := v) (e := e) (r := r) ‹_›
  · refine .callObj (fun e r h => ?_) fun e r h => ?_
    · simpa [h] using Covers.method (self := self) (v := v) (e := e) (r := r) ‹_›
    · simpa [h] using Covers.method (self := self) (v := v) (e := e) (r := r) ‹_›

/-! ## Operations -/

/-- What is said of an operation in the end. -/
def Done (E : Env) (m : Mem) (self : Nat) (meth : String) (name : Nat) (u : UserFn) (args : List Nat) (a : Ptr) (l : List Ask) : Prop :=
  NoUser l ∧ (a = .none ∨ u = .special "__str__" ∨ u = .special "__repr__") ∨
    ∃ pre e r post, l = pre ++ ⟨.user u, args, e, r⟩ :: post ∧ Passes E m self meth name pre ∧ NoUser pre ∧ NoUser post ∧
      (E.isChecker E.none = false → Result E self u r a post)

theorem Passes.congr {m m' : Mem} {self : Nat} {meth : String} {name : Nat} {l : List Ask} (hm : m'.getperms = m.getperms)
    (h : Passes E m' self meth name l) : Passes E m self meth name l := by
  cases h with
  | method h1 h2 => exact .method h1 h2
  | slot h1 h2 h3 => exact .slot h1 h2 h3
  | native h1 h2 h3 => exact .native h1 h2 (hm ▸ h3)

theorem Done.congr {m m' : Mem} {self : Nat} {meth : String} {name : Nat} {u : UserFn} {args : List Nat} {a : Ptr} {l : List Ask}
    (hm : m'.getperms = m.getperms) (h : Done E m' self meth name u args a l) : Done E m self meth name u args a l := by
  rcases h with h | ⟨pre, e, r, post, h1, h2, h3⟩
  · exact .inl h
  · exact .inr ⟨pre, e, r, post, h1, h2.congr hm, h3⟩

theorem leaves_proxyResult {m : Mem} {self fuel : Nat} {r : Reply} {Q : Ptr → List Ask → Prop}
    (h : ∀ p l, NoUser l → (E.isChecker E.none = false → HandsOut E self r p l) → Q p l) :
    Leaves (proxyResult E fuel self (if r.null then .none else some r.obj)) m Q := by
  refine Leaves.mono (P := fun p l => (E.isChecker E.none = false → HandsOut E self r p l) ∧ NoUser l) ?_ fun p l hp => h p l hp.2 hp.1
  refine Leaves.and_quiet ?_ (.proxyResult _ _ _)
  unfold HandsOut
  cases hr : r.null with
  | true => exact .pure fun _ => by simp
  | false =>
    by_cases hnone : E.isChecker E.none = false
    · refine .bind ((leaves_protect hnone).mono fun p l hl m' _ => .bind (.decref fun e1 r1 _ _ => .pure fun _ => ?_))
      rw [if_neg Bool.false_ne_true]
      exact ⟨l, e1, r1, rfl, hl⟩
    · exact .bind ((Quiet.protect _ _ _ _).mono fun p l _ m' _ => .bind (.decref fun e1 r1 _ _ => .pure fun h => absurd h hnone))

/-- A call that returns an object, with one case for both answers. -/
theorem Leaves.callObj' {m : Mem} {k : Call} {f : Fn} {args : List Nat} {P : Ptr → List Ask → Prop}
    (h : ∀ e r, P (if r.null then .none else some r.obj) [⟨f, args, e, r⟩]) : Leaves (CM.callObj E k f args) m P :=
  .callObj (fun e r hr => by simpa [hr] using h e r) fun e r hr => by simpa [hr] using h e r

theorem Leaves.callNext' {m : Mem} {o : Nat} {P : Ptr → List Ask → Prop}
    (h : ∀ e r, P (if r.null then .none else some r.obj) [⟨.user (.special "__next__"), [o], e, r⟩]) : Leaves (CM.callNext E o) m P :=
  .callNext (fun e r hr => by simpa [hr] using h e r) fun e r hr => by simpa [hr] using h e r

/-- The shape of most operations. -/
theorem leaves_op {m : Mem} {self fuel : Nat} {meth : String} {name : Nat} {u : UserFn} {args : List Nat} {f : C Ptr}
    (hu : u ≠ .special "__str__") (hu' : u ≠ .special "__repr__") (hi : ∀ op, u ≠ .inplace op)
    (hf : ∀ m' (Q : Ptr → List Ask → Prop), Q .none [] → (∀ e r, Q (if r.null then .none else some r.obj) [⟨.user u, args, e, r⟩]) → Leaves f m' Q) :
    Leaves (do
      let i ← check E self meth name
      if 0 ≤ i then do
        let result ← f
        proxyResult E fuel self result
      else pure .none) m (Done E m self meth name u args) := by
  refine leaves_after (fun l hl m' _ => .pure (.inl ⟨by simpa using hl, .inl rfl⟩)) fun l hp hl m' _ => ?_
  refine .bind (hf _ _ (fun _ _ => .pure (.inl ⟨by simpa using hl, .inl rfl⟩)) fun e r m' _ => leaves_proxyResult fun p l' hl' ho => ?_)
  exact .inr ⟨l, e, r, l', by simp, hp, hl, hl', fun h => .other hu hu' (fun op ho => absurd ho (hi op)) (ho h)⟩

end ZS.CM
