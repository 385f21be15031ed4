import Verif.Spec.CRefine
import Verif.Lemmas.CFields
import Verif.Lemmas.CMem

/-!
# Following the C code call by call
-/

namespace ZS.CM
variable {A : Type} {E : Env} {I : Interp A} {α β : Type}

/-- Whenever the code ends and its calls are explained from the state on, the result, the memory and the
final state are as described. -/
def Wp (E : Env) (I : Interp A) (x : C α) (m : Mem) (s : St A) (Q : α → Mem → St A → Prop) : Prop :=
  ∀ a m' l s', x m = .ok a m' → m'.asked = l ++ m.asked → Explains E I s l.reverse s' → Q a m' s'

/-- The computation leads to the state, with a related result. -/
def Ends (y : M A β) (s : St A) (R : α → Mem → Res β → Prop) (a : α) (m : Mem) (s' : St A) : Prop :=
  ∃ res, y s = (res, s') ∧ R a m res

theorem Explains.split {s s' : St A} {l l' : List Ask} (h : Explains E I s (l ++ l') s') :
    ∃ s1, Explains E I s l s1 ∧ Explains E I s1 l' s' := by
  induction l generalizing s with
  | nil => exact ⟨s, .nil s, h⟩
  | cons a l ih =>
    cases h with
    | cons h1 h2 =>
      obtain ⟨s1, h3, h4⟩ := ih h2
      exact ⟨s1, .cons h1 h3, h4⟩

theorem Explains.one {s s' : St A} {a : Ask} (h : Explains E I s [a] s') : Explained E I s a s' := by
  cases h with
  | cons h1 h2 => cases h2; exact h1

theorem Explains.eq_nil {s s' : St A} (h : Explains E I s [] s') : s' = s := by cases h; rfl

theorem Runs.elim {y : M A β} {s s' : St A} {P : Res β → Prop} (h : Runs y s s' P) : ∃ res, y s = (res, s') ∧ P res :=
  ⟨(y s).1, by rw [← h.1], h.2⟩

/-- The fields of checkers are the same. -/
def Intact (m m' : Mem) : Prop := m'.getperms = m.getperms ∧ m'.setperms = m.setperms

theorem Intact.fields {m m' : Mem} {s : St A} (h : Intact m m') (hf : ∀ c, FieldsOf E I c m s) : ∀ c, FieldsOf E I c m' s := by
  intro c g st hc
  rw [h.1, h.2]
  exact hf c g st hc

theorem Intact.trans {m m' m'' : Mem} (h : Intact m m') (h' : Intact m' m'') : Intact m m'' := ⟨h'.1.trans h.1, h'.2.trans h.2⟩

namespace Wp
variable {m : Mem} {s : St A}

theorem refines {x : C α} {y : M A β} {P : Mem → St A → Prop} {R : α → Mem → Res β → Prop} (hl : Along Longer x)
    (h : ∀ m s, P m s → Wp E I x m s (Ends y s R)) : Refines E I P x y R := by
  intro m s a m' hp hx
  obtain ⟨l, hl⟩ := hl m a m' hx
  refine ⟨l, hl, fun s' hs => ?_⟩
  obtain ⟨res, h1, h2⟩ := h m s hp a m' l s' hx hl hs
  rw [h1]
  exact ⟨rfl, h2⟩

theorem mono {x : C α} {Q Q' : α → Mem → St A → Prop} (h : Wp E I x m s Q) (hq : ∀ a m' s', Q a m' s' → Q' a m' s') :
    Wp E I x m s Q' := fun a m' l s' h1 h2 h3 => hq a m' s' (h a m' l s' h1 h2 h3)

theorem bind {x : C α} {k : α → C β} {Q : β → Mem → St A → Prop} (h : Wp E I x m s fun a m1 s1 => Wp E I (k a) m1 s1 Q)
    (hx : Along Longer x := by fields) (hk : ∀ a, Along Longer (k a) := by intro; fields) : Wp E I (x >>= k) m s Q := by
  intro b m2 l s2 hb hl hs
  rw [bind_run] at hb
  cases hxm : x m with
  | ok a m1 =>
    rw [hxm] at hb
    obtain ⟨l1, h1⟩ := hx m a m1 hxm
    obtain ⟨l2, h2⟩ := hk a m1 b m2 hb
    have : l = l2 ++ l1 := by
      rw [h2, h1, ← List.append_assoc] at hl
      exact (List.append_cancel_right hl).symm
    rw [this, List.reverse_append] at hs
    obtain ⟨s1, h3, h4⟩ := hs.split
    exact h a m1 l1 s1 hxm h1 h3 b m2 l2 s2 hb h2 h4
  | fault f m1 => rw [hxm] at hb; cases hb
  | diverge => rw [hxm] at hb; cases hb

theorem silent {x : C α} {Q : α → Mem → St A → Prop} (h : ∀ a m', x m = .ok a m' → m'.asked = m.asked ∧ Q a m' s) : Wp E I x m s Q := by
  intro a m' l s' hx hl hs
  obtain ⟨h1, h2⟩ := h a m' hx
  have : l = [] := by rw [h1] at hl; exact List.self_eq_append_left.mp hl
  rw [this] at hs
  rw [hs.eq_nil]
  exact h2

theorem pure {a : α} {Q : α → Mem → St A → Prop} (h : Q a m s) : Wp E I (Pure.pure a) m s Q :=
  silent fun b m' hx => by cases hx; exact ⟨rfl, h⟩

theorem fail {f : Fault} {Q : α → Mem → St A → Prop} : Wp E I (CM.fail f) m s Q :=
  silent fun b m' hx => by cases hx

theorem ite {p : Prop} [Decidable p] {x y : C α} {Q : α → Mem → St A → Prop} (hx : p → Wp E I x m s Q) (hy : ¬p → Wp E I y m s Q) :
    Wp E I (if p then x else y) m s Q := by
  split
  · exact hx ‹_›
  · exact hy ‹_›

theorem use {o : Nat} {Q : Unit → Mem → St A → Prop} (h : Q () m s) : Wp E I (CM.use E o) m s Q :=
  silent fun b m' hx => by
    unfold CM.use at hx
    split at hx
    · cases hx; exact ⟨rfl, h⟩
    · cases hx

theorem useAll {l : List Nat} {Q : Unit → Mem → St A → Prop} (h : Q () m s) : Wp E I (CM.useAll E l) m s Q := by
  induction l with
  | nil => exact pure h
  | cons o l ih => exact bind (use ih)

theorem gain {o : Nat} {Q : Unit → Mem → St A → Prop} (h : ∀ m', m'.raised = m.raised → Intact m m' → Q () m' s) :
    Wp E I (CM.gain o) m s Q :=
  silent fun b m' hx => by cases hx; exact ⟨rfl, h _ rfl ⟨rfl, rfl⟩⟩

theorem incref {o : Nat} {Q : Unit → Mem → St A → Prop} (h : ∀ m', m'.raised = m.raised → Intact m m' → Q () m' s) :
    Wp E I (CM.incref E o) m s Q :=
  bind (x := CM.use E o) (k := fun _ => CM.gain o) (use (gain h))

theorem setErr {b : Bool} {e : Raised} {Q : Unit → Mem → St A → Prop} (h : ∀ m', m'.raised = e → Intact m m' → Q () m' s) :
    Wp E I (CM.setErr b e) m s Q :=
  silent fun b m' hx => by cases hx; exact ⟨rfl, h _ rfl ⟨rfl, rfl⟩⟩

theorem clearErr {Q : Unit → Mem → St A → Prop} (h : ∀ m', m'.raised = .nothing → Intact m m' → Q () m' s) :
    Wp E I CM.clearErr m s Q := setErr h

theorem setString {e t : String} {Q : Unit → Mem → St A → Prop}
    (h : ∀ m', m'.raised = .set (E.const e) (E.const t) → Intact m m' → Q () m' s) : Wp E I (CM.setString E e t) m s Q := setErr h

theorem setObject {a b : Nat} {Q : Unit → Mem → St A → Prop} (h : ∀ m', m'.raised = .set a b → Intact m m' → Q () m' s) :
    Wp E I (CM.setObject E a b) m s Q := bind (useAll (setErr h))

theorem readText {p : Ptr} {Q : List Char → Mem → St A → Prop} (h : ∀ b, p = some b → Q (E.bytes b) m s) :
    Wp E I (CM.readText E p) m s Q := by
  cases p with
  | none => exact fail
  | some b => exact bind (use (pure (h b rfl)))

theorem deref {p : Ptr} {Q : Nat → Mem → St A → Prop} (h : ∀ b, p = some b → Q b m s) : Wp E I (CM.deref p) m s Q := by
  cases p with
  | none => exact fail
  | some b => exact pure (h b rfl)

theorem loadGetperms {o : Nat} {Q : Ptr → Mem → St A → Prop} (h : ∀ m', m'.raised = m.raised → Intact m m' → Q (m.getperms o) m' s) :
    Wp E I (CM.loadGetperms o) m s Q :=
  silent fun b m' hx => by cases hx; exact ⟨rfl, h _ rfl ⟨rfl, rfl⟩⟩

theorem loadSetperms {o : Nat} {Q : Ptr → Mem → St A → Prop} (h : ∀ m', m'.raised = m.raised → Intact m m' → Q (m.setperms o) m' s) :
    Wp E I (CM.loadSetperms o) m s Q :=
  silent fun b m' hx => by cases hx; exact ⟨rfl, h _ rfl ⟨rfl, rfl⟩⟩

theorem consult {k : Call} {f : Fn} {args : List Nat} {Q : Reply → Mem → St A → Prop}
    (h : ∀ r m' s', Explained E I s ⟨f, args, m.raised, r⟩ s' → m'.raised = m.raised → Intact m m' → Q r m' s') :
    Wp E I (CM.consult E k f args) m s Q := by
  intro a m' l s' hx hl hs
  cases hx
  have : l = [⟨f, args, m.raised, E.reply m.log.length⟩] := by
    rw [← List.singleton_append] at hl
    exact (List.append_cancel_right hl).symm
  rw [this] at hs
  exact h _ _ _ hs.one rfl ⟨rfl, rfl⟩

theorem give {o : Nat} {Q : Unit → Mem → St A → Prop} (h : ∀ m', m'.raised = m.raised → Intact m m' → Q () m' s) :
    Wp E I (CM.give o) m s Q :=
  silent fun b m' hx => by
    unfold CM.give at hx
    split at hx
    · cases hx
    · cases hx; exact ⟨rfl, h _ rfl ⟨rfl, rfl⟩⟩

theorem decref {o : Nat} {Q : Unit → Mem → St A → Prop} (h : ∀ m', m'.raised = m.raised → Intact m m' → Q () m' s) :
    Wp E I (CM.decref E o) m s Q := by
  refine bind (x := CM.give o) (k := fun _ => CM.consult E .decref .destroy [o] >>= fun _ => Pure.pure ()) ?_
  refine give fun m1 h1 h2 => bind (consult fun r m2 s2 h3 h4 h5 => ?_)
  have : s2 = s := h3
  subst this
  exact pure (h _ (h4.trans h1) (h2.trans h5))

theorem xdecref {p : Ptr} {Q : Unit → Mem → St A → Prop} (h : ∀ m', m'.raised = m.raised → Intact m m' → Q () m' s) :
    Wp E I (CM.xdecref E p) m s Q := by
  cases p with
  | none => exact pure (h m rfl ⟨rfl, rfl⟩)
  | some o => exact decref h

theorem returnNone {Q : Ptr → Mem → St A → Prop} (h : ∀ m', m'.raised = m.raised → Intact m m' → Q (some E.none) m' s) :
    Wp E I (CM.returnNone E) m s Q := bind (incref fun m' h1 h2 => pure (h m' h1 h2))

/-! ## Calls -/

theorem callObj {k : Call} {f : Fn} {args : List Nat} {Q : Ptr → Mem → St A → Prop}
    (hok : ∀ r m' s', Explained E I s ⟨f, args, m.raised, r⟩ s' → r.null = false → m'.raised = m.raised → Intact m m' → Q (some r.obj) m' s')
    (herr : ∀ r m' s', Explained E I s ⟨f, args, m.raised, r⟩ s' → r.null = true → m'.raised = .callee r.obj → Intact m m' → Q .none m' s') :
    Wp E I (CM.callObj E k f args) m s Q := by
  refine bind (useAll (bind (consult fun r m1 s1 h1 h2 h3 => ite (fun hn => ?_) fun hn => ?_)))
  · exact bind (setErr fun m2 h4 h5 => pure (herr r m2 s1 h1 hn h4 (h3.trans h5)))
  · exact bind (gain fun m2 h4 h5 => pure (hok r m2 s1 h1 (by simpa using hn) (h4.trans h2) (h3.trans h5)))

theorem callNext {o : Nat} {Q : Ptr → Mem → St A → Prop}
    (hok : ∀ r m' s', Explained E I s ⟨.user (.special "__next__"), [o], m.raised, r⟩ s' → r.null = false → Q (some r.obj) m' s')
    (herr : ∀ r m' s', Explained E I s ⟨.user (.special "__next__"), [o], m.raised, r⟩ s' → r.null = true → m'.raised = .callee r.obj → Q .none m' s') :
    Wp E I (CM.callNext E o) m s Q := by
  refine bind (use (bind (consult fun r m1 s1 h1 h2 h3 => ite (fun hn => ?_) fun hn => ?_)))
  · exact bind (setErr fun m2 h4 h5 => pure (herr r m2 s1 h1 hn h4))
  · exact bind (gain fun m2 h4 h5 => pure (hok r m2 s1 h1 (by simpa using hn)))

theorem callInt {k : Call} {f : Fn} {args : List Nat} {Q : Int → Mem → St A → Prop}
    (h : ∀ r m' s', Explained E I s ⟨f, args, m.raised, r⟩ s' → (0 ≤ r.num → m'.raised = m.raised) →
      (r.num < 0 → m'.raised = .callee r.obj) → Intact m m' → Q r.num m' s') :
    Wp E I (CM.callInt E k f args) m s Q := by
  refine bind (useAll (bind (consult fun r m1 s1 h1 h2 h3 => ite (fun hn => ?_) fun hn => ?_)))
  · exact bind (setErr fun m2 h4 h5 => pure (h r m2 s1 h1 (fun h => by omega) (fun _ => h4) (h3.trans h5)))
  · exact pure (h r m1 s1 h1 (fun _ => h2) (fun h => absurd h hn) h3)

theorem callHash {o : Nat} {Q : Int → Mem → St A → Prop}
    (h : ∀ r m' s', Explained E I s ⟨.user (.special "__hash__"), [o], m.raised, r⟩ s' → (r.num = -1 → m'.raised = .callee r.obj) → Q r.num m' s') :
    Wp E I (CM.callHash E o) m s Q := by
  refine bind (useAll (bind (consult fun r m1 s1 h1 h2 h3 => ite (fun hn => ?_) fun hn => ?_)))
  · exact bind (setErr fun m2 h4 h5 => pure (h r m2 s1 h1 (fun _ => h4)))
  · exact pure (h r m1 s1 h1 (fun h => absurd h hn))

theorem callTest {f : Fn} {args : List Nat} {Q : Bool → Mem → St A → Prop}
    (h : ∀ r m' s', Explained E I s ⟨f, args, m.raised, r⟩ s' → m'.raised = m.raised → Intact m m' → Q (decide (r.num ≠ 0)) m' s') :
    Wp E I (CM.callTest E f args) m s Q :=
  bind (useAll (bind (consult fun r m1 s1 h1 h2 h3 => pure (h r m1 s1 h1 h2 h3))))

theorem dictGet {d key : Nat} {Q : Ptr → Mem → St A → Prop}
    (h : ∀ r m' s', Explained E I s ⟨.dictGet, [d, key], m.raised, r⟩ s' → m'.raised = m.raised → Intact m m' →
      Q (if r.null then .none else some r.obj) m' s') :
    Wp E I (CM.dictGet E d key) m s Q := by
  refine bind (useAll (bind (consult fun r m1 s1 h1 h2 h3 => ite (fun hn => ?_) fun hn => ?_) (hk := ?_))) (hk := ?_)
  · refine pure ?_
    have := h r m1 s1 h1 h2 h3
    rwa [if_pos hn] at this
  · refine silent fun b m' hx => ?_
    cases hx
    refine ⟨rfl, ?_⟩
    have := h r { m1 with loose := fun o => decide (o = r.obj) || m1.loose o } s1 h1 h2 h3
    rwa [if_neg hn] at this
  · intro r
    exact .ite (.pure _) (fun m b m' h => by cases h; exact Harmless.loose ..)
  · intro _
    exact .bind (.consult _ _ _) fun r => .ite (.pure _) (fun m b m' h => by cases h; exact Harmless.loose ..)

theorem parse {args : List Nat} {Q : Bool → Mem → St A → Prop} (h : ∀ m', m'.raised = m.raised → Intact m m' → Q true m' s) :
    Wp E I (CM.parse E args) m s Q := by
  refine bind (useAll (bind (consult fun r m1 s1 h1 h2 h3 => ite (fun hn => ?_) fun hn => ?_)))
  · obtain ⟨rfl, h5⟩ := h1
    rw [hn] at h5
    cases h5
  · obtain ⟨rfl, h5⟩ := h1
    exact pure (h m1 h2 h3)

/-- A call that returns an object and has a meaning. -/
theorem obj {k : Call} {f : Fn} {args : List Nat} {Q : Ptr → Mem → St A → Prop} {y : M A Val}
    (hy : ∀ r s', Explained E I s ⟨f, args, m.raised, r⟩ s' → Runs y s s' (ObjAnswer I r))
    (hok : ∀ o m' s', y s = (.ok (I.val o), s') → m'.raised = m.raised → Intact m m' → Q (some o) m' s')
    (herr : ∀ e m' s', y s = (.err e, s') → exnOf E I m'.raised = some e → Intact m m' → Q .none m' s') :
    Wp E I (CM.callObj E k f args) m s Q := by
  refine callObj (fun r m' s' h1 h2 h3 h4 => ?_) (fun r m' s' h1 h2 h3 h4 => ?_)
  · obtain ⟨res, h5, h6⟩ := (hy r s' h1).elim
    cases res with
    | ok v => obtain ⟨_, rfl⟩ := h6; exact hok _ _ _ h5 h3 h4
    | err e => rw [h6.1] at h2; cases h2
    | diverge => exact h6.elim
  · obtain ⟨res, h5, h6⟩ := (hy r s' h1).elim
    cases res with
    | ok v => rw [h6.1] at h2; cases h2
    | err e => exact herr _ _ _ h5 (by rw [h3, exnOf, h6.2]) h4
    | diverge => exact h6.elim

end Wp
end ZS.CM
