import Verif.Lemmas.Trace
import Verif.Lemmas.Pres
import Verif.Props.Checks
import Verif.Props.Select
import Verif.Spec.Mediation
import Verif.Examples.World

/-!
# C13, C14, C15, C18: complete mediation
-/

namespace ZS.Props
open Spec
variable {A : Type}

/-! ## The tables agree -/

theorem binNames_eq (b : BinName) : binNames b = (b.op, b.rop) := by cases b <;> rfl
theorem inNames_eq (b : InName) : inNames b = (b.op, b.plain) := by cases b <;> rfl
theorem unNames_eq (u : UnName) : unNames u = u.op := by cases u <;> rfl
theorem cmpNames_eq (b : CmpName) : cmpNames b = b.op := by cases b <;> rfl

theorem pop_c {X : Ctx A} (hX : X.impl = .c) (id : Nat) (w c : Val) (op : POp) :
    pop X (.proxy id w c) op = popC X id w c op := by
  simp only [pop, hX]

theorem pop_py {X : Ctx A} (hX : X.impl = .py) (id : Nat) (w c : Val) (op : POp) :
    pop X (.proxy id w c) op = popPy X id w c op := by
  simp only [pop, hX]

/-- The actor of a requirement is a security proxy. -/
theorem need_actor (impl : Impl) (p : Val) (hp : IsProxy p) (op : POp) (q : Need) (h : need impl p op = some q) :
    IsProxy q.actor := by
  have hh : ∀ v : Val, v.isProxy = true → IsProxy v := fun v h => (isProxy_iff v).mp h
  cases op <;> simp only [need] at h <;> (try split at h) <;> (try split at h) <;> (try split at h) <;>
    (try (cases h; done)) <;> cases h <;> first | exact hp | exact hh _ ‹_›

/-! ## Compiled proxies -/

/-- **C13, C18** Every checked operation of a compiled proxy, except `str` and `repr`, is: ask the
checker of the acting proxy for the name required by the table; carry out exactly the tabulated
operation on the object it wraps; deliver the result. -/
theorem C13_exact_c (X : Ctx A) (hX : X.impl = .c) (p : Val) (hp : IsProxy p) (op : POp) (q : Need)
    (hq : need .c p op = some q) (ia : Nat) (w c : Val) (ha : q.actor = .proxy ia w c)
    (hslot : ¬ NoSlot .c op) (hstr : op ≠ .str) (hrepr : op ≠ .repr) (s : St A) :
    pop X p op s = (do
      chkCheck X (hasattrX X) q.kind c w q.name
      let v ← perform X (q.carry w)
      deliver X p w c op v : M A Val) s := by
  obtain ⟨id, pw, pc, rfl⟩ := hp
  rw [pop_c hX]
  cases op with
  | unop u =>
    simp only [need] at hq
    cases hq; cases ha
    cases u <;> first | rfl | exact absurd ⟨rfl, by simp⟩ hslot
  | binL b o =>
    simp only [need, binNames_eq] at hq
    cases hq; cases ha
    rfl
  | binR b o =>
    simp only [need, binNames_eq] at hq
    split at hq
    · cases hq
      cases o <;> simp only [reduceCtorEq] at ha
      cases ha
      rfl
    · next ho =>
      cases hq; cases ha
      cases o <;> first | rfl | exact absurd rfl ho
  | rpow x m =>
    simp only [need] at hq
    split at hq
    · cases hq
      cases x <;> simp only [reduceCtorEq] at ha
      cases ha
      rfl
    · next ho =>
      cases hq; cases ha
      cases x <;> first | rfl | exact absurd rfl ho
  | pow3 x y =>
    simp only [need] at hq
    split at hq
    · cases hq
      cases x <;> simp only [reduceCtorEq] at ha
      cases ha
      rfl
    · next ho =>
      split at hq
      · cases hq
        cases y <;> simp only [reduceCtorEq] at ha
        cases ha
        cases x <;> first | rfl | exact absurd rfl ho
      · next ho2 =>
        cases hq; cases ha
        cases x <;> first | exact absurd rfl ho | skip
        all_goals cases y <;> first | rfl | exact absurd rfl ho2
  | inplace b o =>
    simp only [need, inNames_eq] at hq
    cases hq; cases ha
    rfl
  | str => exact absurd rfl hstr
  | repr => exact absurd rfl hrepr
  | compare b o => simp [need] at hq
  | hash => simp [need] at hq
  | bool => simp [need] at hq
  | lengthHint => simp [need] at hq
  | len =>
    simp only [need] at hq
    cases hq; cases ha
    rfl
  | _ =>
    simp only [need] at hq
    cases hq; cases ha
    rfl

/-! ## What is carried out -/

/-- The event is a probe, or carries out an operation with `P`. -/
def Only (P : RawOp → Prop) : Event → Prop
  | .probed _ => True
  | .performed ro => P ro

theorem hasattrD_adds_c (X : Ctx A) (hX : X.impl = .c) (k : Nat) (v : Val) (n : Name) :
    Adds (Only fun ro => (∃ i u c, v = .proxy i u c) ∧ ∃ u, Inside u v ∧ ro = .getattr u n) (hasattrD X k v n) := by
  induction k generalizing v n with
  | zero => unfold ZS.hasattrD; exact .hasattrOf (.probe' _ trivial)
  | succ k ih =>
    cases v with
    | proxy id w c =>
      simp only [ZS.hasattrD, hX]
      refine .hasattrOf ?_
      refine .bind (.chkCheck (fun _ => trivial) _ _ _ _ fun _ => ?_) fun _ =>
        .bind (.perform _ ⟨⟨_, _, _, rfl⟩, w, .here, rfl⟩) fun _ => .chkProxy (fun _ => trivial) _ _
      refine (ih w n).mono ?_
      intro e he
      cases e with
      | probed => trivial
      | performed ro =>
        obtain ⟨_, u, h1, h2⟩ := he
        exact ⟨⟨_, _, _, rfl⟩, u, .deeper h1, h2⟩
    | _ => simp only [ZS.hasattrD]; exact .hasattrOf (.probe' _ trivial)

theorem getattributePy_adds {Q : Event → Prop} (hQ : ∀ r, Q (.probed r)) (X : Ctx A) {H : Val → Name → M A Bool} (id : Nat)
    (w c : Val) (n : Name) (hn : n = "__iter__") (hH : ∀ v, Adds Q (H v n)) (h : ∀ v, Q (.performed (.baseGetattr v n))) :
    Adds Q (getattrPy X H id w c n false) := by
  subst hn
  refine .tryCatch ?_ fun e => .bind .get fun s => .bind (.chkCheck hQ _ _ _ _ fun _ => hH _) fun _ => .throw _
  unfold getattributePy
  refine .ite (.throw _) (.bind .get fun s => .ite (.pure _) (.ite (.pure _) (.bind ?_ fun _ => ?_)))
  · exact .ite (.pure _) (.chkCheck hQ _ _ _ _ fun _ => hH _)
  · rw [if_neg (by decide)]
    exact .bind .get fun s1 => .bind (.perform _ (h _)) fun _ => .chkProxy hQ _ _

theorem hasattrD_adds_py (X : Ctx A) (hX : X.impl = .py) (k : Nat) (v : Val) :
    Adds (Only fun ro => (∃ i u c, v = .proxy i u c) ∧ ∃ u, ro = .baseGetattr u "__iter__") (hasattrD X k v "__iter__") := by
  induction k generalizing v with
  | zero => unfold ZS.hasattrD; exact .hasattrOf (.probe' _ trivial)
  | succ k ih =>
    cases v with
    | proxy id w c =>
      simp only [ZS.hasattrD, hX]
      refine .hasattrOf (getattributePy_adds (fun _ => trivial) X id w c _ rfl (fun u => (ih u).mono ?_)
        fun u => ⟨⟨_, _, _, rfl⟩, u, rfl⟩)
      intro e he
      cases e with
      | probed => trivial
      | performed ro => exact ⟨⟨_, _, _, rfl⟩, he.2⟩
    | _ => simp only [ZS.hasattrD]; exact .hasattrOf (.probe' _ trivial)

/-- A check carries out nothing except lookups of `__iter__` through nested proxies. -/
theorem check_adds (X : Ctx A) (k : CheckKind) (c w : Val) (n : Name) :
    Adds (Only (NestedLookup X.impl w n)) (chkCheck X (hasattrX X) k c w n) := by
  refine .chkCheck (fun _ => trivial) _ _ _ _ fun hn => ?_
  subst hn
  cases hX : X.impl with
  | c =>
    refine (hasattrD_adds_c X hX X.depth w "__iter__").mono ?_
    intro e he
    cases e with
    | probed => trivial
    | performed ro => exact ⟨rfl, he.1, he.2⟩
  | py =>
    refine (hasattrD_adds_py X hX X.depth w).mono ?_
    intro e he
    cases e with
    | probed => trivial
    | performed ro => exact ⟨rfl, he.1, he.2⟩

/-- New events after `s`. -/
def NewEvents (s s' : St A) (Q : Event → Prop) : Prop := ∃ es, s'.trace = s.trace ++ es ∧ ∀ e ∈ es, Q e

/-- A check followed by something: what the latter carries out needs the check to have granted. -/
theorem checked_events (X : Ctx A) (k : CheckKind) (c w : Val) (n : Name) (f : Unit → M A Val) (P : RawOp → Prop) (s : St A)
    (hf : ∀ s1, chkCheck X (hasattrX X) k c w n s = (.ok (), s1) → NewEvents s1 (f () s1).2 (Only P)) :
    NewEvents s ((chkCheck X (hasattrX X) k c w n >>= f) s).2
      (Only fun ro => NestedLookup X.impl w n ro
        ∨ (P ro ∧ ∃ s1, chkCheck X (hasattrX X) k c w n s = (.ok (), s1))) := by
  have hc := (check_adds X k c w n).mono (Q' := (Only fun ro => NestedLookup X.impl w n ro
        ∨ (P ro ∧ ∃ s1, chkCheck X (hasattrX X) k c w n s = (.ok (), s1)))) (by
    intro e he
    cases e with
    | probed => trivial
    | performed ro => exact .inl he) s
  rw [run_bind]
  rcases hs : chkCheck X (hasattrX X) k c w n s with ⟨r, s1⟩
  rw [hs] at hc
  cases r with
  | ok a =>
    refine Adds.trans hc ?_
    obtain ⟨es, h1, h2⟩ := hf s1 hs
    refine ⟨es, h1, fun e he => ?_⟩
    have := h2 e he
    cases e with
    | probed => trivial
    | performed ro => exact .inr ⟨this, s1, rfl⟩
  | err e => simpa [hs, NewEvents] using hc
  | diverge => simpa [hs, NewEvents] using hc

theorem NewEvents.of_adds {α : Type} {Q : Event → Prop} {x : M A α} (h : Adds Q x) (s : St A) : NewEvents s (x s).2 Q := h s

theorem deliver_adds (X : Ctx A) (P : RawOp → Prop) (p w c : Val) (op : POp) (v : Val) :
    Adds (Only P) (deliver X p w c op v) := by
  have hP : ∀ r, Only P (.probed r) := fun _ => trivial
  unfold deliver
  split
  all_goals try exact .pure _
  all_goals try exact .chkProxy hP _ _
  · split
    · exact .ite (.pure _) (.throw _)
    · exact .throw _
  · exact .ite (.pure _) (.chkProxy hP _ _)
  · split
    · exact .pure _
    · exact .ite (.pure _) (.throw _)
  · split
    · exact .pure _
    · exact .ite (.pure _) (.throw _)

theorem defaultReprC_adds (X : Ctx A) (P : RawOp → Prop) (w : Val) : Adds (Only P) (defaultReprC X w) := by
  have hP : ∀ r, Only P (.probed r) := fun _ => trivial
  have hn : ∀ v, Adds (Only P) (asName v : M A String) := by
    intro v; unfold asName; split
    · exact .pure _
    · exact .throw _
  refine .bind (.probe hP _) fun k => .bind (.probe hP _) fun nm => .bind (hn _) fun sn => .bind ?_ fun sm => ?_
  · exact .tryCatch (.bind (.probe hP _) fun _ => .pure _) fun _ => .pure _
  · split
    · exact .bind (hn _) fun _ => .pure _
    · exact .pure _

theorem asStr_adds (X : Ctx A) (Q : Event → Prop) (v : Val) : Adds Q (asStr X.W v) := by
  unfold asStr
  split
  · exact .pure _
  · exact .ite (.pure _) (.throw _)

theorem asInt_adds (Q : Event → Prop) (v : Val) : Adds Q (asInt v : M A Val) := by
  unfold asInt
  split
  · exact .pure _
  · exact .throw _

/-- `str` and `repr` of a compiled proxy. -/
theorem strC_events (X : Ctx A) (w c : Val) (n : Name) (s : St A) :
    NewEvents s (strC X w c n s).2
      (Only fun ro => NestedLookup X.impl w n ro
        ∨ (ro = .special n w [] ∧ ∃ s1, chkCheck X (hasattrX X) .check c w n s = (.ok (), s1))) := by
  have hc := (check_adds X .check c w n).mono (Q' := (Only fun ro => NestedLookup X.impl w n ro
        ∨ (ro = .special n w [] ∧ ∃ s1, chkCheck X (hasattrX X) .check c w n s = (.ok (), s1)))) (by
    intro e he
    cases e with
    | probed => trivial
    | performed ro => exact .inl he) s
  unfold strC guard
  rcases hs : chkCheck X (hasattrX X) .check c w n s with ⟨r, s1⟩
  rw [hs] at hc
  cases r with
  | ok a =>
    refine Adds.trans hc ?_
    exact (Adds.bind (.perform _ (.inr ⟨rfl, s1, rfl⟩)) fun v => asStr_adds X _ v : Adds _ _) s1
  | err e => exact Adds.trans hc (defaultReprC_adds X _ w s1)
  | diverge => exact hc

/-- **C13** Complete mediation for compiled proxies: in every execution of every operation on every
proxy, whatever is carried out on behalf of the caller is `Allowed` — the checker of the acting
proxy granted, in the state in which the operation was applied, exactly the required name, and
what is carried out is the requested operation with the requested arguments on the object that
proxy wraps; or the operation is one of comparison, hash, truth value and length hint. -/
theorem C13_mediation_c (X : Ctx A) (hX : X.impl = .c) (p : Val) (hp : IsProxy p) (op : POp) (s : St A) :
    NewEvents s (pop X p op s).2 (Only (Allowed X p op s)) := by
  cases hq : need .c p op with
  | some q =>
    obtain ⟨ia, w, c, ha⟩ := need_actor _ p hp op q hq
    have hcur : current X.impl s q.actor = some (w, c) := by rw [ha, hX]; rfl
    have key : ∀ s', NewEvents s s' (Only fun ro => NestedLookup X.impl w q.name ro
        ∨ (ro = q.carry w ∧ ∃ s1, chkCheck X (hasattrX X) q.kind c w q.name s = (.ok (), s1))) →
        NewEvents s s' (Only (Allowed X p op s)) := by
      rintro s' ⟨es, h1, h2⟩
      refine ⟨es, h1, fun e he => ?_⟩
      have := h2 e he
      cases e with
      | probed => trivial
      | performed ro =>
        simp only [Only, Allowed, hX, hq] at this ⊢
        rw [hX] at hcur
        refine ⟨w, c, hcur, ?_⟩
        rcases this with h | ⟨h, h3⟩
        · exact .inl h
        · exact .inr ⟨by cases op <;> exact h, h3⟩
    apply key
    by_cases hslot : NoSlot .c op
    · obtain ⟨id, pw, pc, rfl⟩ := hp
      rw [pop_c hX]
      rcases hslot with ⟨_, rfl | rfl⟩ <;> exact ⟨[], by simp [popC], by simp⟩
    · by_cases hstr : op = .str
      · subst hstr
        obtain ⟨id, pw, pc, rfl⟩ := hp
        simp only [need] at hq
        cases hq
        cases ha
        rw [pop_c hX]
        exact strC_events X w c _ s
      · by_cases hrepr : op = .repr
        · subst hrepr
          obtain ⟨id, pw, pc, rfl⟩ := hp
          simp only [need] at hq
          cases hq
          cases ha
          rw [pop_c hX]
          exact strC_events X w c _ s
        · rw [C13_exact_c X hX p hp op q hq ia w c ha hslot hstr hrepr s]
          refine checked_events X q.kind c w q.name _ (fun ro => ro = q.carry w) s fun s1 _ => NewEvents.of_adds ?_ s1
          refine .bind (.perform _ ?_) fun v => deliver_adds X _ p w c op v
          rfl
  | none =>
    obtain ⟨id, w, c, rfl⟩ := hp
    have key : ∀ s', NewEvents s s' (Only (Free .c w op)) → NewEvents s s' (Only (Allowed X (.proxy id w c) op s)) := by
      rintro s' ⟨es, h1, h2⟩
      refine ⟨es, h1, fun e he => ?_⟩
      have := h2 e he
      cases e with
      | probed => trivial
      | performed ro =>
        simp only [Only, Allowed, hX, hq] at this ⊢
        exact ⟨w, c, rfl, this⟩
    apply key
    rw [pop_c hX]
    cases op with
    | compare b o =>
      refine NewEvents.of_adds (.bind (.perform _ ?_) fun v => ?_) s
      · exact congrArg (fun n => RawOp.compare n w o) (cmpNames_eq b).symm
      · split
        · exact .pure _
        · exact .chkProxy (fun _ => trivial) _ _
    | hash =>
      refine NewEvents.of_adds (.bind (.perform _ ?_) fun v => asInt_adds _ v) s
      rfl
    | bool =>
      refine NewEvents.of_adds (.bind (.perform _ ?_) fun v => .pure _) s
      rfl
    | lengthHint =>
      refine NewEvents.of_adds (.tryCatch (.perform _ ?_) fun _ => .pure _) s
      rfl
    | binR b o => simp only [need] at hq; split at hq <;> cases hq
    | rpow b o => simp only [need] at hq; split at hq <;> cases hq
    | pow3 b o => simp only [need] at hq; split at hq <;> first | cases hq | (split at hq <;> cases hq)
    | _ => simp only [need] at hq; cases hq

/-! ## Pure-Python proxies -/

/-- Application code does not re-assign the private slots of the proxy with this identifier. -/
def NotRepointed (W : World A) (id : Nat) : Prop :=
  ∀ r s, (W.apply r s).2.ovW id = s.ovW id ∧ (W.apply r s).2.ovC id = s.ovC id

theorem NotRepointed.keeps {W : World A} {id : Nat} (h : NotRepointed W id) (a b : Option Val) :
    Keeps (fun s : St A => s.ovW id = a ∧ s.ovC id = b) W where
  apply := fun r s hs => ⟨(h r s).1.trans hs.1, (h r s).2.trans hs.2⟩
  trace := fun _ _ hs => hs
  nextId := fun _ hs => hs

/-- The check itself does not re-point the proxy. -/
theorem check_keeps {X : Ctx A} {id : Nat} (h : NotRepointed X.W id) (k : CheckKind) (c w : Val) (n : Name) (s : St A) :
    (chkCheck X (hasattrX X) k c w n s).2.ovW id = s.ovW id ∧ (chkCheck X (hasattrX X) k c w n s).2.ovC id = s.ovC id :=
  Pres.guard (h.keeps (s.ovW id) (s.ovC id)) k c w n s ⟨rfl, rfl⟩

/-- What may be carried out after a check of `n` by checker `c` of object `w`. -/
def Granted (X : Ctx A) (k : CheckKind) (c w : Val) (n : Name) (P : RawOp → Prop) (s : St A) (ro : RawOp) : Prop :=
  NestedLookup X.impl w n ro ∨ (P ro ∧ ∃ s1, chkCheck X (hasattrX X) k c w n s = (.ok (), s1))

theorem checkNamePy_events (X : Ctx A) (id : Nat) (w0 c0 : Val) (h : NotRepointed X.W id) (n : Name) (r : Val → RawOp)
    (s : St A) :
    NewEvents s (checkNamePy X id w0 c0 n r s).2
      (Only (Granted X .check (proxyChecker X s id c0) (proxyWrapped X s id w0) n
        (fun ro => ro = r (proxyWrapped X s id w0)) s)) := by
  refine checked_events X .check _ _ n _ (fun ro => ro = r (proxyWrapped X s id w0)) s fun s1 hs1 => ?_
  have hk := check_keeps h .check (proxyChecker X s id c0) (proxyWrapped X s id w0) n s
  rw [hs1] at hk
  have hw : proxyWrapped X s1 id w0 = proxyWrapped X s id w0 := by
    unfold proxyWrapped; rw [hk.1]
  have : NewEvents s1 ((perform X (r (proxyWrapped X s1 id w0)) >>= fun v => chkProxy X (proxyChecker X s id c0) v) s1).2
      (Only fun ro => ro = r (proxyWrapped X s id w0)) := by
    rw [hw]
    refine NewEvents.of_adds (.bind (.perform _ ?_) fun v => .chkProxy (fun _ => trivial) _ _) s1
    rfl
  exact this

theorem checkNameNonePy_events (X : Ctx A) (id : Nat) (w0 c0 : Val) (h : NotRepointed X.W id) (n : Name) (r : Val → RawOp)
    (s : St A) :
    NewEvents s (checkNameNonePy X id w0 c0 n r s).2
      (Only (Granted X .check (proxyChecker X s id c0) (proxyWrapped X s id w0) n
        (fun ro => ro = r (proxyWrapped X s id w0)) s)) := by
  refine checked_events X .check _ _ n _ (fun ro => ro = r (proxyWrapped X s id w0)) s fun s1 hs1 => ?_
  have hk := check_keeps h .check (proxyChecker X s id c0) (proxyWrapped X s id w0) n s
  rw [hs1] at hk
  have hw : proxyWrapped X s1 id w0 = proxyWrapped X s id w0 := by
    unfold proxyWrapped; rw [hk.1]
  have : NewEvents s1 ((perform X (r (proxyWrapped X s1 id w0)) >>= fun _ => chkProxy X (proxyChecker X s id c0) .none >>= fun _ =>
      pure Val.none) s1).2 (Only fun ro => ro = r (proxyWrapped X s id w0)) := by
    rw [hw]
    refine NewEvents.of_adds (.bind (.perform _ ?_) fun v => .bind (.chkProxy (fun _ => trivial) _ _) fun _ => .pure _) s1
    rfl
  exact this

/-- Continuing after some events. -/
theorem NewEvents.trans {s0 s1 s2 : St A} {Q : Event → Prop} (h1 : NewEvents s0 s1 Q) (h2 : NewEvents s1 s2 Q) :
    NewEvents s0 s2 Q := Adds.trans h1 h2

theorem NewEvents.mono {s0 s1 : St A} {Q Q' : Event → Prop} (h1 : NewEvents s0 s1 Q) (h : ∀ e, Q e → Q' e) :
    NewEvents s0 s1 Q' := by
  obtain ⟨es, h1, h2⟩ := h1
  exact ⟨es, h1, fun e he => h e (h2 e he)⟩

theorem only_mono {P P' : RawOp → Prop} (h : ∀ ro, P ro → P' ro) (e : Event) (he : Only P e) : Only P' e := by
  cases e with
  | probed => trivial
  | performed ro => exact h ro he

theorem NewEvents.bind {α β : Type} {Q : Event → Prop} {x : M A α} {f : α → M A β} {s : St A}
    (h1 : NewEvents s (x s).2 Q) (h2 : ∀ a s1, x s = (.ok a, s1) → NewEvents s1 (f a s1).2 Q) :
    NewEvents s ((x >>= f) s).2 Q := by
  rw [run_bind]
  rcases hx : x s with ⟨r, s1⟩
  rw [hx] at h1
  cases r with
  | ok a => exact h1.trans (h2 a s1 hx)
  | err e => exact h1
  | diverge => exact h1

theorem NewEvents.tryCatch {α : Type} {Q : Event → Prop} {x : M A α} {p : Exn → Bool} {f : Exn → M A α} {s : St A}
    (h1 : NewEvents s (x s).2 Q) (h2 : ∀ e s1, x s = (.err e, s1) → NewEvents s1 (f e s1).2 Q) :
    NewEvents s (M.tryCatch x p f s).2 Q := by
  rw [run_tryCatch]
  rcases hx : x s with ⟨r, s1⟩
  rw [hx] at h1
  cases r with
  | ok a => exact h1
  | err e =>
    simp only
    split
    · exact h1.trans (h2 e s1 hx)
    · exact h1
  | diverge => exact h1

theorem defaultReprPy_adds (X : Ctx A) (P : RawOp → Prop) (w : Val) : Adds (Only P) (defaultReprPy X w) := by
  have hP : ∀ r, Only P (.probed r) := fun _ => trivial
  have hn : ∀ v, Adds (Only P) (asName v : M A String) := by
    intro v; unfold asName; split
    · exact .pure _
    · exact .throw _
  exact .bind (.probe hP _) fun _ => .bind (.probe hP _) fun _ => .bind (.probe hP _) fun _ =>
    .bind (.probe hP _) fun _ => .bind (hn _) fun _ => .bind (hn _) fun _ => .pure _

theorem strPy_events (X : Ctx A) (id : Nat) (w0 c0 : Val) (h : NotRepointed X.W id) (n : Name) (s : St A) :
    NewEvents s (strPy X id w0 c0 n s).2
      (Only (Granted X .check (proxyChecker X s id c0) (proxyWrapped X s id w0) n
        (fun ro => ro = .special n (proxyWrapped X s id w0) []) s)) := by
  refine NewEvents.bind (NewEvents.tryCatch ?_ fun e s1 _ => ?_) fun v s1 _ => NewEvents.of_adds (asStr_adds X _ v) s1
  · exact checkNamePy_events X id w0 c0 h n (fun w => .special n w []) s
  · exact defaultReprPy_adds X _ _ s1

/-- Reading an attribute of a pure-Python proxy. -/
theorem getattrPy_events (X : Ctx A) (id : Nat) (w0 c0 : Val) (h : NotRepointed X.W id) (n : Name) (inside : Bool)
    (hn : n ∉ freeAttrs) (r : Val → RawOp)
    (hr : r = if n = "__reduce__" ∨ n = "__reduce_ex__" ∨ n = "__module__" then (fun w => .getattr w n) else (fun w => .baseGetattr w n))
    (s : St A) :
    NewEvents s (getattrPy X (hasattrX X) id w0 c0 n inside s).2
      (Only (Granted X .getattr (proxyChecker X s id c0) (proxyWrapped X s id w0) n
        (fun ro => ro = r (proxyWrapped X s id w0)) s)) := by
  have hkeep : Pres (fun s' : St A => s'.ovW id = s.ovW id ∧ s'.ovC id = s.ovC id)
      (getattributePy X (hasattrX X) id w0 c0 n inside) := by
    have hk := h.keeps (s.ovW id) (s.ovC id)
    unfold getattributePy
    refine .ite (.throw _) (.bind .get fun s => .ite (.pure _) (.ite (.pure _) (.bind ?_ fun _ => ?_)))
    · exact .ite (.pure _) (.guard hk _ _ _ _)
    · refine .ite (.bind (.perform hk _) fun _ => .chkProxy hk _ _) (.bind .get fun s1 => ?_)
      exact .bind (.perform hk _) fun _ => .chkProxy hk _ _
  have hcheck : ∀ s1 : St A, s1.ovW id = s.ovW id ∧ s1.ovC id = s.ovC id → ∀ n,
      NewEvents s1 (chkCheck X (hasattrX X) .getattr (proxyChecker X s1 id c0) (proxyWrapped X s1 id w0) n s1).2
        (Only (NestedLookup X.impl (proxyWrapped X s id w0) n)) := by
    intro s1 h1 n
    have hw : proxyWrapped X s1 id w0 = proxyWrapped X s id w0 := by unfold proxyWrapped; rw [h1.1]
    rw [hw]
    exact check_adds X .getattr _ _ n s1
  refine NewEvents.tryCatch ?_ fun e s1 hs1 => ?_
  · unfold getattributePy
    rw [run_ite]
    split
    · exact NewEvents.of_adds (.throw _) s
    · show NewEvents s ((if n = "_wrapped" then pure _ else if n = "_checker" then pure _ else _ : M A Val) s).2 _
      rw [run_ite]
      split
      · exact NewEvents.of_adds (.pure _) s
      · rw [run_ite]
        split
        · exact NewEvents.of_adds (.pure _) s
        · have hun : n ∉ pyUncheckedAttrs := hn
          unfold getattributeCheckPy
          rw [if_neg hun]
          refine checked_events X .getattr _ _ n _ (fun ro => ro = r (proxyWrapped X s id w0)) s fun s1 hs1 => ?_
          have hk := check_keeps h .getattr (proxyChecker X s id c0) (proxyWrapped X s id w0) n s
          rw [hs1] at hk
          have hw : proxyWrapped X s1 id w0 = proxyWrapped X s id w0 := by unfold proxyWrapped; rw [hk.1]
          rw [run_ite]
          split
          · next hred =>
            rw [if_pos hred] at hr
            refine NewEvents.of_adds (.bind (.perform _ ?_) fun v => .chkProxy (fun _ => trivial) _ _) s1
            rw [hr]; rfl
          · next hred =>
            rw [if_neg hred] at hr
            show NewEvents s1 ((perform X (.baseGetattr (proxyWrapped X s1 id w0) n) >>= _) s1).2 _
            rw [hw]
            refine NewEvents.of_adds (.bind (.perform _ ?_) fun v => .chkProxy (fun _ => trivial) _ _) s1
            rw [hr]; rfl
  · have hk := hkeep s ⟨rfl, rfl⟩
    rw [hs1] at hk
    refine NewEvents.bind (x := chkCheck X (hasattrX X) .getattr (proxyChecker X s1 id c0) (proxyWrapped X s1 id w0) n)
      (f := fun _ => M.throw (.attributeError n)) ?_ fun _ s2 _ => NewEvents.of_adds (.throw _) s2
    exact (hcheck s1 hk n).mono (only_mono fun ro h => .inl h)

/-- Reading one of the unchecked attributes of a pure-Python proxy. -/
theorem getattrPy_free_events (X : Ctx A) (id : Nat) (w0 c0 : Val) (n : Name) (inside : Bool) (hn : n ∈ freeAttrs) (s : St A) :
    NewEvents s (getattrPy X (hasattrX X) id w0 c0 n inside s).2
      (Only fun ro => ro = .baseGetattr (proxyWrapped X s id w0) n) := by
  have hun : n ∈ pyUncheckedAttrs := hn
  have hne : n ≠ "_wrapped" ∧ n ≠ "_checker" ∧ n ≠ "__iter__" ∧ ¬ (n = "__reduce__" ∨ n = "__reduce_ex__" ∨ n = "__module__") := by
    have : ∀ n ∈ freeAttrs, n ≠ "_wrapped" ∧ n ≠ "_checker" ∧ n ≠ "__iter__" ∧
      ¬ (n = "__reduce__" ∨ n = "__reduce_ex__" ∨ n = "__module__") := by decide
    exact this n hn
  obtain ⟨h1, h2, h3, h4⟩ := hne
  refine NewEvents.tryCatch ?_ fun e s1 hs1 => ?_
  · unfold getattributePy
    rw [run_ite, if_neg (by simp [h1, h2])]
    show NewEvents s ((if n = "_wrapped" then pure _ else if n = "_checker" then pure _ else _ : M A Val) s).2 _
    rw [run_ite, if_neg h1, run_ite, if_neg h2]
    unfold getattributeCheckPy
    rw [if_pos hun]
    show NewEvents s ((if _ then _ else _ : M A Val) s).2 _
    rw [run_ite, if_neg h4]
    refine NewEvents.of_adds (x := perform X (.baseGetattr (proxyWrapped X s id w0) n) >>= _)
      (.bind (.perform _ ?_) fun v => .chkProxy (fun _ => trivial) _ _) s
    rfl
  · refine NewEvents.of_adds ?_ s1
    exact .bind .get fun s => .bind (.chkCheck (fun _ => trivial) _ _ _ _ fun h => absurd h h3) fun _ => .throw _

theorem inplacePy_events (X : Ctx A) (id : Nat) (w0 c0 : Val) (b : InName) (o : Val) (s : St A) :
    NewEvents s (inplacePy X id w0 c0 b o s).2
      (Only (Granted X .check (proxyChecker X s id c0) (proxyWrapped X s id w0) b.op
        (fun ro => ro = .getattr (proxyWrapped X s id w0) b.op ∨ ro = .getattr (proxyWrapped X s id w0) b.plain
          ∨ ∃ m, ro = .call m [o]) s)) := by
  refine checked_events X .check _ _ b.op _ (fun ro => ro = .getattr (proxyWrapped X s id w0) b.op ∨
    ro = .getattr (proxyWrapped X s id w0) b.plain ∨ ∃ m, ro = .call m [o]) s fun s1 _ => NewEvents.of_adds ?_ s1
  refine .bind (.orNone (.perform _ (.inl rfl))) fun m => .ite ?_ ?_
  · exact .bind (.perform _ (.inr (.inr ⟨m, rfl⟩))) fun v => .bind (.modify fun _ => rfl) fun _ => .pure _
  · exact .bind (.perform _ (.inr (.inl rfl))) fun m2 => .bind (.perform _ (.inr (.inr ⟨m2, rfl⟩))) fun v => .newProxy _ _

theorem lengthHintPy_adds (X : Ctx A) (w : Val) :
    Adds (Only fun ro => ro = .getattr w "__length_hint__" ∨ ∃ h, ro = .call h []) (lengthHintPy X w) := by
  refine .bind (.tryCatch (.bind (.perform _ (.inl rfl)) fun _ => .pure _) fun _ => .pure _) fun h => ?_
  split
  · exact .pure _
  · exact .perform _ (.inr ⟨_, rfl⟩)

/-- **C13** Complete mediation for pure-Python proxies, as long as application code does not
re-assign the private slots of security proxies. -/
theorem C13_mediation_py (X : Ctx A) (hX : X.impl = .py) (hW : ∀ id, NotRepointed X.W id) (p : Val) (hp : IsProxy p)
    (op : POp) (s : St A) : NewEvents s (pop X p op s).2 (Only (Allowed X p op s)) := by
  obtain ⟨id, w, c, rfl⟩ := hp
  rw [pop_py hX]
  -- the general shape of a checked operation
  have key : ∀ (q : Need) (ia : Nat) (wa ca : Val), need .py (.proxy id w c) op = some q → q.actor = .proxy ia wa ca →
      ∀ (P : RawOp → Prop), (∀ ro, P ro → Carries .py op q (proxyWrapped X s ia wa) ro) → ∀ s',
      NewEvents s s' (Only (Granted X q.kind (proxyChecker X s ia ca) (proxyWrapped X s ia wa) q.name P s)) →
      NewEvents s s' (Only (Allowed X (.proxy id w c) op s)) := by
    intro q ia wa ca hq ha P hP s' h
    refine h.mono (only_mono fun ro h => ?_)
    simp only [Allowed, hX, hq]
    refine ⟨proxyWrapped X s ia wa, proxyChecker X s ia ca, ?_, ?_⟩
    · rw [ha]; simp only [current, proxyWrapped, proxyChecker, hX]
    · rcases h with h | ⟨h, h2⟩
      · exact .inl (hX ▸ h)
      · exact .inr ⟨hP ro h, h2⟩
  have free : need .py (.proxy id w c) op = none → ∀ s', NewEvents s s' (Only (Free .py (proxyWrapped X s id w) op)) →
      NewEvents s s' (Only (Allowed X (.proxy id w c) op s)) := by
    intro hq s' h
    refine h.mono (only_mono fun ro h => ?_)
    simp only [Allowed, hX, hq]
    refine ⟨proxyWrapped X s id w, proxyChecker X s id c, ?_, h⟩
    simp only [current, proxyWrapped, proxyChecker, hX]
  have simple : ∀ (q : Need) (ia : Nat) (wa ca : Val), need .py (.proxy id w c) op = some q → q.actor = .proxy ia wa ca →
      q.kind = .check → (∀ b o, op ≠ .inplace b o) →
      NewEvents s (checkNamePy X ia wa ca q.name q.carry s).2 (Only (Allowed X (.proxy id w c) op s)) := by
    intro q ia wa ca hq ha hk hin
    refine key q ia wa ca hq ha (fun ro => ro = q.carry (proxyWrapped X s ia wa)) ?_ _ ?_
    · intro ro h
      cases op <;> first | exact h | exact absurd rfl (hin _ _)
    · rw [hk]; exact checkNamePy_events X ia wa ca (hW ia) q.name q.carry s
  cases op with
  | getattr n inside =>
    by_cases hn : n ∈ freeAttrs
    · refine free (by simp [need, hn]) _ ((getattrPy_free_events X id w c n inside hn s).mono (only_mono fun ro h => ?_))
      exact ⟨rfl, hn, h⟩
    · by_cases hr : n = "__reduce__" ∨ n = "__reduce_ex__" ∨ n = "__module__"
      · exact key ⟨.proxy id w c, .getattr, n, fun w => .getattr w n⟩ id w c (by simp [need, hn, hr]) rfl _ (fun ro h => h) _
          (getattrPy_events X id w c (hW id) n inside hn _ (if_pos hr).symm s)
      · exact key ⟨.proxy id w c, .getattr, n, fun w => .baseGetattr w n⟩ id w c (by simp [need, hn, hr]) rfl _ (fun ro h => h) _
          (getattrPy_events X id w c (hW id) n inside hn _ (if_neg hr).symm s)
  | setattr n v =>
    simp only [popPy, setattrPy]
    rw [run_ite]
    split
    · exact ⟨[], by simp [run_bind], by simp⟩
    · rw [run_ite]
      split
      · exact ⟨[], by simp [run_bind], by simp⟩
      · refine key _ id w c rfl rfl (fun ro => ro = .setattr (proxyWrapped X s id w) n v) (fun ro h => h) _ ?_
        refine checked_events X .setattr _ _ n _ _ s fun s1 _ => NewEvents.of_adds ?_ s1
        refine .bind (.perform _ ?_) fun _ => .pure _
        rfl
  | delattr n =>
    simp only [popPy, delattrPy]
    rw [run_ite]
    split
    · exact NewEvents.of_adds (.throw _) s
    · refine key _ id w c rfl rfl (fun ro => ro = .delattr (proxyWrapped X s id w) n) (fun ro h => h) _ ?_
      refine checked_events X .setattr _ _ n _ _ s fun s1 _ => NewEvents.of_adds ?_ s1
      refine .bind (.perform _ ?_) fun _ => .pure _
      rfl
  | unop u => simp only [popPy, ← unNames_eq]; exact simple _ id w c rfl rfl rfl (by simp)
  | call args => exact simple _ id w c rfl rfl rfl (by simp)
  | getitem k => exact simple _ id w c rfl rfl rfl (by simp)
  | setitem k v =>
    refine key _ id w c rfl rfl (fun ro => ro = .special "__setitem__" (proxyWrapped X s id w) [k, v]) (fun ro h => h) _ ?_
    exact checkNameNonePy_events X id w c (hW id) "__setitem__" (fun w => .special "__setitem__" w [k, v]) s
  | delitem k =>
    refine key _ id w c rfl rfl (fun ro => ro = .special "__delitem__" (proxyWrapped X s id w) [k]) (fun ro h => h) _ ?_
    exact checkNameNonePy_events X id w c (hW id) "__delitem__" (fun w => .special "__delitem__" w [k]) s
  | contains v =>
    refine key _ id w c rfl rfl (fun ro => ro = .special "__contains__" (proxyWrapped X s id w) [v]) (fun ro h => h) _ ?_
    refine checked_events X .check _ _ "__contains__" _ _ s fun s1 hs1 => ?_
    have hk := check_keeps (hW id) .check (proxyChecker X s id c) (proxyWrapped X s id w) "__contains__" s
    rw [hs1] at hk
    have hw : proxyWrapped X s1 id w = proxyWrapped X s id w := by unfold proxyWrapped; rw [hk.1]
    show NewEvents s1 ((perform X (.special "__contains__" (proxyWrapped X s1 id w) [v]) >>= _) s1).2 _
    rw [hw]
    refine NewEvents.of_adds (.bind (.perform _ ?_) fun _ => .bind (.chkProxy (fun _ => trivial) _ _) fun _ => .pure _) s1
    rfl
  | len =>
    refine key _ id w c rfl rfl (fun ro => ro = .special "__len__" (proxyWrapped X s id w) []) (fun ro h => h) _ ?_
    refine checked_events X .check _ _ "__len__" _ _ s fun s1 hs1 => ?_
    have hk := check_keeps (hW id) .check (proxyChecker X s id c) (proxyWrapped X s id w) "__len__" s
    rw [hs1] at hk
    have hw : proxyWrapped X s1 id w = proxyWrapped X s id w := by unfold proxyWrapped; rw [hk.1]
    show NewEvents s1 ((perform X (.special "__len__" (proxyWrapped X s1 id w) []) >>= _) s1).2 _
    rw [hw]
    refine NewEvents.of_adds (.bind (.perform _ ?_) fun v => ?_) s1
    · rfl
    · unfold asLen; split
      · exact .ite (.pure _) (.throw _)
      · exact .throw _
  | iter => exact simple _ id w c rfl rfl rfl (by simp)
  | next => exact simple _ id w c rfl rfl rfl (by simp)
  | binL b o =>
    have := simple _ id w c rfl rfl rfl (by simp)
    simp only [binNames_eq] at this
    exact this
  | binR b o =>
    cases o with
    | proxy i2 w2 c2 =>
      have := simple ⟨.proxy i2 w2 c2, .check, _, _⟩ i2 w2 c2 rfl rfl rfl (by simp)
      simp only [binNames_eq] at this
      exact this
    | _ =>
      have := simple ⟨.proxy id w c, .check, _, _⟩ id w c rfl rfl rfl (by simp)
      simp only [binNames_eq] at this
      exact this
  | pow y m => exact simple _ id w c rfl rfl rfl (by simp)
  | rpow x m =>
    cases x with
    | proxy i2 w2 c2 => exact simple ⟨.proxy i2 w2 c2, .check, _, _⟩ i2 w2 c2 rfl rfl rfl (by simp)
    | _ => exact simple ⟨.proxy id w c, .check, _, _⟩ id w c rfl rfl rfl (by simp)
  | pow3 x y =>
    by_cases hx : x.isProxy = true
    · obtain ⟨i2, w2, c2, rfl⟩ := (isProxy_iff x).mp hx
      exact simple ⟨.proxy i2 w2 c2, .check, _, _⟩ i2 w2 c2 rfl rfl rfl (by simp)
    · by_cases hy : y.isProxy = true
      · obtain ⟨i2, w2, c2, rfl⟩ := (isProxy_iff y).mp hy
        have := simple ⟨.proxy i2 w2 c2, .check, "__rpow__", fun v => .pow x v (.proxy id w c)⟩ i2 w2 c2
          (by simp only [need]; rw [if_neg hx]; rfl) rfl rfl (by simp)
        cases x <;> first | exact this | exact absurd rfl hx
      · have : popPy X id w c (.pow3 x y) s = (.ok .notImpl, s) := by
          cases x <;> first | exact absurd rfl hx | skip
          all_goals cases y <;> first | exact absurd rfl hy | rfl
        rw [this]
        exact ⟨[], by simp, by simp⟩
  | inplace b o =>
    have := key _ id w c rfl rfl (fun ro => ro = .getattr (proxyWrapped X s id w) b.op ∨ ro = .getattr (proxyWrapped X s id w) b.plain
          ∨ ∃ m, ro = .call m [o]) (fun ro h => by simp only [Carries, inNames_eq]; exact h) _
      (by rw [inNames_eq]; exact inplacePy_events X id w c b o s)
    exact this
  | compare b o =>
    refine free rfl _ (NewEvents.of_adds (x := perform X (.compare b.op (proxyWrapped X s id w) o)) (.perform _ ?_) s)
    exact congrArg (fun n => RawOp.compare n _ o) (cmpNames_eq b).symm
  | hash =>
    refine free rfl _ (NewEvents.of_adds (x := perform X (.special "__hash__" (proxyWrapped X s id w) []) >>= _)
      (.bind (.perform _ ?_) fun v => asInt_adds _ v) s)
    rfl
  | bool =>
    refine free rfl _ (NewEvents.of_adds (x := perform X (.special "__bool__" (proxyWrapped X s id w) []) >>= _)
      (.bind (.perform _ ?_) fun v => .pure _) s)
    rfl
  | lengthHint => exact free rfl _ (NewEvents.of_adds (lengthHintPy_adds X (proxyWrapped X s id w)) s)
  | str => exact key _ id w c rfl rfl _ (fun ro h => h) _ (strPy_events X id w c (hW id) "__str__" s)
  | repr => exact key _ id w c rfl rfl _ (fun ro h => h) _ (strPy_events X id w c (hW id) "__repr__" s)

/-! ## The exact form of an operation in both implementations -/

/-- The operations with the plain shape: check, operate, protect the result. -/
def Plain (impl : Impl) : POp → Prop
  | .unop u => ¬ (impl = .c ∧ (u = .complex ∨ u = .index))
  | .call _ | .getitem _ | .iter | .next | .binL .. | .binR .. | .pow .. | .rpow .. => True
  | .pow3 x y => impl = .py → x.isProxy = true ∨ y.isProxy = true
  | _ => False

theorem checkNamePy_exact (X : Ctx A) (id : Nat) (w0 c0 : Val) (h : NotRepointed X.W id) (n : Name) (r : Val → RawOp) (s : St A) :
    checkNamePy X id w0 c0 n r s = (do
      chkCheck X (hasattrX X) .check (proxyChecker X s id c0) (proxyWrapped X s id w0) n
      let v ← perform X (r (proxyWrapped X s id w0))
      chkProxy X (proxyChecker X s id c0) v : M A Val) s := by
  show (chkCheck X (hasattrX X) .check (proxyChecker X s id c0) (proxyWrapped X s id w0) n >>= fun _ =>
      M.get >>= fun s1 => perform X (r (proxyWrapped X s1 id w0)) >>= fun v => chkProxy X (proxyChecker X s id c0) v) s = _
  rw [run_bind, run_bind]
  rcases hs : chkCheck X (hasattrX X) .check (proxyChecker X s id c0) (proxyWrapped X s id w0) n s with ⟨res, s1⟩
  have hk := check_keeps h .check (proxyChecker X s id c0) (proxyWrapped X s id w0) n s
  rw [hs] at hk
  have hw : proxyWrapped X s1 id w0 = proxyWrapped X s id w0 := by unfold proxyWrapped; rw [hk.1]
  cases res with
  | ok a =>
    show (perform X (r (proxyWrapped X s1 id w0)) >>= _) s1 = _
    rw [hw]
  | err e => rfl
  | diverge => rfl

/-- **C13, C18** In both implementations a plain operation is: ask the checker of the acting proxy
for the required name; carry out the tabulated operation on the object it wraps; protect the
result with the same checker's `proxy`. -/
theorem C13_exact (X : Ctx A) (hW : X.impl = .py → ∀ id, NotRepointed X.W id) (p : Val) (hp : IsProxy p) (op : POp)
    (hop : Plain X.impl op) (q : Need) (hq : need X.impl p op = some q) (s : St A) (w c : Val)
    (hcur : current X.impl s q.actor = some (w, c)) :
    pop X p op s = (do
      chkCheck X (hasattrX X) q.kind c w q.name
      let v ← perform X (q.carry w)
      chkProxy X c v : M A Val) s := by
  obtain ⟨ia, wa, ca, ha⟩ := need_actor _ p hp op q hq
  cases hX : X.impl with
  | c =>
    rw [hX] at hq hop hcur
    rw [ha] at hcur
    simp only [current, Option.some.injEq, Prod.mk.injEq] at hcur
    obtain ⟨rfl, rfl⟩ := hcur
    rw [C13_exact_c X hX p hp op q hq ia wa ca ha ?_ ?_ ?_ s]
    · cases op <;> first | rfl | exact absurd hop id
    · rintro ⟨_, rfl | rfl⟩ <;> exact hop ⟨rfl, by simp⟩
    · rintro rfl; exact hop
    · rintro rfl; exact hop
  | py =>
    rw [hX] at hq hop hcur
    rw [ha] at hcur
    simp only [current, Option.some.injEq, Prod.mk.injEq] at hcur
    have hwc : proxyWrapped X s ia wa = w ∧ proxyChecker X s ia ca = c := by
      simp only [proxyWrapped, proxyChecker, hX]; exact hcur
    have key := checkNamePy_exact X ia wa ca (hW hX ia) q.name q.carry s
    rw [hwc.1, hwc.2] at key
    obtain ⟨id, pw, pc, rfl⟩ := hp
    rw [pop_py hX]
    cases op with
    | unop u =>
      simp only [need, unNames_eq] at hq
      cases hq; cases ha
      exact key
    | binL b o =>
      simp only [need, binNames_eq] at hq
      cases hq; cases ha
      exact key
    | binR b o =>
      simp only [need, binNames_eq] at hq
      split at hq
      · cases hq
        cases o <;> simp only [reduceCtorEq] at ha
        cases ha
        exact key
      · next ho =>
        cases hq; cases ha
        cases o <;> first | exact key | exact absurd rfl ho
    | rpow x m =>
      simp only [need] at hq
      split at hq
      · cases hq
        cases x <;> simp only [reduceCtorEq] at ha
        cases ha
        exact key
      · next ho =>
        cases hq; cases ha
        cases x <;> first | exact key | exact absurd rfl ho
    | pow3 x y =>
      simp only [need] at hq
      split at hq
      · cases hq
        cases x <;> simp only [reduceCtorEq] at ha
        cases ha
        exact key
      · next ho =>
        split at hq
        · cases hq
          cases y <;> simp only [reduceCtorEq] at ha
          cases ha
          cases x <;> first | exact key | exact absurd rfl ho
        · next ho2 => exact absurd (hop rfl) (by simp [ho, ho2])
    | call a => simp only [need] at hq; cases hq; cases ha; exact key
    | getitem a => simp only [need] at hq; cases hq; cases ha; exact key
    | iter => simp only [need] at hq; cases hq; cases ha; exact key
    | next => simp only [need] at hq; cases hq; cases ha; exact key
    | pow a b => simp only [need] at hq; cases hq; cases ha; exact key
    | _ => exact absurd hop _root_.id

/-! ## C18 Binary operators and pow -/

/-- The three steps of a mediated operation. -/
def mediated (X : Ctx A) (k : CheckKind) (c w : Val) (n : Name) (ro : RawOp) : M A Val := do
  chkCheck X (hasattrX X) k c w n
  let v ← perform X ro
  chkProxy X c v

/-- **C18** For a binary operator: if the left operand is a proxy, its checker is asked for the
direct name and only it is unwrapped (the right operand is passed on as it is, even if it is a
proxy); otherwise the right operand's checker is asked for the reflected name and only it is
unwrapped.  It does not matter through which of two proxied operands the runtime enters. -/
theorem C18_binary (X : Ctx A) (hW : X.impl = .py → ∀ id, NotRepointed X.W id) (b : BinName) (l r : Val) (s : St A) :
    (∀ w c, current X.impl s l = some (w, c) →
        pop X l (.binL b r) s = mediated X .check c w (binNames b).1 (.binop (binNames b).1 w r) s
        ∧ (IsProxy r → pop X r (.binR b l) s = pop X l (.binL b r) s))
    ∧ (∀ w c, ¬ IsProxy l → current X.impl s r = some (w, c) →
        pop X r (.binR b l) s = mediated X .check c w (binNames b).2 (.binop (binNames b).1 l w) s) := by
  have isP : ∀ v w c, current X.impl s v = some (w, c) → IsProxy v := by
    intro v w c h
    cases v <;> simp only [current, reduceCtorEq] at h
    exact ⟨_, _, _, rfl⟩
  constructor
  · intro w c h
    have hl := isP l w c h
    have h1 := C13_exact X hW l hl (.binL b r) trivial _ rfl s w c h
    refine ⟨h1, fun hr => ?_⟩
    have hq : need X.impl r (.binR b l) = some ⟨l, .check, (binNames b).1, fun w => .binop (binNames b).1 w r⟩ := by
      simp only [need]; rw [if_pos ((isProxy_iff l).mpr hl)]
    rw [h1]
    exact C13_exact X hW r hr (.binR b l) trivial _ hq s w c h
  · intro w c hl h
    have hq : need X.impl r (.binR b l) = some ⟨r, .check, (binNames b).2, fun w => .binop (binNames b).1 l w⟩ := by
      simp only [need]; rw [if_neg (by rw [(not_isProxy_iff l).mpr hl]; simp)]
    exact C13_exact X hW r (isP r w c h) (.binR b l) trivial _ hq s w c h

/-- **C18** `pow(x, y, m)`: the first proxied argument decides, with `__pow__`, `__rpow__` or (only in
the compiled implementation) `__3pow__`. -/
theorem C18_pow (X : Ctx A) (hW : X.impl = .py → ∀ id, NotRepointed X.W id) (x y m : Val) (s : St A) :
    (∀ w c, current X.impl s x = some (w, c) →
        pop X x (.pow y m) s = mediated X .check c w "__pow__" (.pow w y m) s)
    ∧ (∀ w c, ¬ IsProxy x → current X.impl s y = some (w, c) →
        pop X y (.rpow x m) s = mediated X .check c w "__rpow__" (.pow x w m) s)
    ∧ (∀ w c, ¬ IsProxy x → ¬ IsProxy y → X.impl = .c → current .c s m = some (w, c) →
        pop X m (.pow3 x y) s = mediated X .check c w "__3pow__" (.pow x y w) s)
    ∧ (¬ IsProxy x → ¬ IsProxy y → X.impl = .py → IsProxy m → pop X m (.pow3 x y) s = (.ok .notImpl, s)) := by
  have isP : ∀ v w c, current X.impl s v = some (w, c) → IsProxy v := by
    intro v w c h
    cases v <;> simp only [current, reduceCtorEq] at h
    exact ⟨_, _, _, rfl⟩
  have nf : ∀ {v}, ¬ IsProxy v → ¬ v.isProxy = true := fun h => by rw [(not_isProxy_iff _).mpr h]; simp
  refine ⟨fun w c h => ?_, fun w c hx h => ?_, fun w c hx hy hX h => ?_, fun hx hy hX hm => ?_⟩
  · exact C13_exact X hW x (isP x w c h) (.pow y m) trivial _ rfl s w c h
  · have hq : need X.impl y (.rpow x m) = some ⟨y, .check, "__rpow__", fun w => .pow x w m⟩ := by
      simp only [need]; rw [if_neg (nf hx)]
    exact C13_exact X hW y (isP y w c h) (.rpow x m) trivial _ hq s w c h
  · have h' : current X.impl s m = some (w, c) := by rw [hX]; exact h
    have hq : need X.impl m (.pow3 x y) = some ⟨m, .check, "__3pow__", fun w => .pow x y w⟩ := by
      simp only [need]; rw [if_neg (nf hx), if_neg (nf hy)]
    exact C13_exact X hW m (isP m w c h') (.pow3 x y) (fun h => by rw [hX] at h; cases h) _ hq s w c h'
  · obtain ⟨id, w, c, rfl⟩ := hm
    rw [pop_py hX]
    have hx := nf hx
    have hy := nf hy
    cases x <;> first | exact absurd rfl hx | skip
    all_goals cases y <;> first | exact absurd rfl hy | rfl

/-! ## C14 A denied operation has no effect -/

/-- Checks of ordinary checkers under the built-in policies have no effects. -/
theorem check_pure (X : Ctx A) (H : Val → Name → M A Bool) (k : CheckKind) (c o : Val) (n : Name) (s : St A)
    (hc : Ordinary c) (hb : BuiltinOnly X s) (hn : n ≠ "__iter__") : (chkCheck X H k c o n s).2 = s := by
  have hperm : ∀ p r, PermSpec X s o n p r → r.2 = s := by
    intro p r h
    have hix : ∀ ix ret s', (s.threads X.tid).interaction = some ix → IxAnswer X.W s p o ix ret s' → s' = s := by
      intro ix ret s' h1 h2
      obtain ⟨i, rfl⟩ := hb ix h1
      cases h2 with
      | yes => rfl
      | no => rfl
      | foreign h => exact absurd rfl (h i)
      | foreignErr h => exact absurd rfl (h i)
      | foreignDiv h => exact absurd rfl (h i)
    cases h with
    | isPublic => rfl
    | noInteraction => rfl
    | allowed _ h1 h2 => exact hix _ _ _ h1 h2
    | refused _ h1 h2 => exact hix _ _ _ h1 h2
    | policyFails _ h1 h2 => exact hix _ _ _ h1 h2
    | policyHangs _ h1 h2 => exact hix _ _ _ h1 h2
  have hread : ∀ g, (plainCheck X H g o n s).2 = s := by
    intro g
    have h := (plainCheck_spec X H g o n s _).mp rfl
    generalize plainCheck X H g o n s = r at h
    cases h with
    | declared _ h => exact hperm _ _ h
    | byDefault => rfl
    | forbidden => rfl
    | noIter _ _ h => exact absurd h hn
    | hasIter _ _ h => exact absurd h hn
    | iterFails _ _ h => exact absurd h hn
    | iterHangs _ _ h => exact absurd h hn
  have hwrite : ∀ st, (plainSetattr X st o n s).2 = s := by
    intro st
    have h := (plainSetattr_spec X st o n s _).mp rfl
    generalize plainSetattr X st o n s = r at h
    cases h with
    | declared _ h => exact hperm _ _ h
    | forbidden => rfl
  have hcomb : ∀ x y : M A Unit, (x s).2 = s → (y s).2 = s → (combine x y s).2 = s := by
    intro x y hx hy
    unfold combine
    rcases h : x s with ⟨r, s1⟩
    rw [h] at hx
    simp only at hx
    subst hx
    cases r with
    | ok _ => rfl
    | diverge => rfl
    | err e =>
      simp only
      split
      · exact hy
      · split
        · rw [run_tryCatch]
          rcases h2 : y s1 with ⟨r2, s2⟩
          rw [h2] at hy
          simp only at hy
          subst hy
          cases r2 with
          | ok _ => rfl
          | diverge => rfl
          | err e2 => simp only; split <;> rfl
        · rfl
  induction c generalizing k with
  | checker id g st => cases k <;> simp only [chkCheck] <;> first | exact hread _ | exact hwrite _
  | combined id g st c2 ih =>
    cases k <;> simp only [chkCheck]
    · exact hcomb _ _ (hread _) (ih _ hc)
    · exact hcomb _ _ (hread _) (ih _ hc)
    · exact hcomb _ _ (hwrite _) (ih _ hc)
  | _ => exact absurd hc _root_.id

/-- **C14** When the check refuses (for whatever reason) or does not return, nothing at all is carried
out on behalf of the caller, in both implementations.  (If the wrapped object is itself a proxy
and the name is `__iter__`, the check itself may look up `__iter__` through the inner proxy.) -/
theorem C14_nothing_done (X : Ctx A) (hW : X.impl = .py → ∀ id, NotRepointed X.W id) (p : Val) (hp : IsProxy p) (op : POp)
    (q : Need) (hq : need X.impl p op = some q) (s : St A) (w c : Val) (hcur : current X.impl s q.actor = some (w, c))
    (hw : ¬ IsProxy w ∨ q.name ≠ "__iter__")
    (hden : ∀ s1, chkCheck X (hasattrX X) q.kind c w q.name s ≠ (.ok (), s1)) :
    NewEvents s (pop X p op s).2 IsProbe := by
  have h : NewEvents s (pop X p op s).2 (Only (Allowed X p op s)) := by
    cases hX : X.impl with
    | c => exact C13_mediation_c X hX p hp op s
    | py => exact C13_mediation_py X hX (hW hX) p hp op s
  refine h.mono fun e he => ?_
  cases e with
  | probed => trivial
  | performed ro =>
    simp only [Only, Allowed, hq] at he
    obtain ⟨w', c', h1, h2⟩ := he
    rw [hcur] at h1
    cases h1
    rcases h2 with ⟨h2, h3, _⟩ | ⟨_, s1, h2⟩
    · rcases hw with hw | hw
      · exact absurd h3 hw
      · exact absurd h2 hw
    · exact absurd h2 (hden s1)

/-- **C14** The exception of the check is delivered unchanged, in the state the check left: every
checked operation of a compiled proxy but `str` and `repr`. -/
theorem C14_denied_c (X : Ctx A) (hX : X.impl = .c) (p : Val) (hp : IsProxy p) (op : POp) (q : Need)
    (hq : need .c p op = some q) (ia : Nat) (w c : Val) (ha : q.actor = .proxy ia w c)
    (hslot : ¬ NoSlot .c op) (hstr : op ≠ .str) (hrepr : op ≠ .repr) (s s1 : St A) (e : Exn)
    (hden : chkCheck X (hasattrX X) q.kind c w q.name s = (.err e, s1)) :
    pop X p op s = (.err e, s1) := by
  rw [C13_exact_c X hX p hp op q hq ia w c ha hslot hstr hrepr s, run_bind, hden]

/-- **C14** ... and every checked operation of a pure-Python proxy but `str`, `repr` and reading an
attribute (next theorem), the private slots excepted. -/
theorem C14_denied_py (X : Ctx A) (hX : X.impl = .py) (p : Val) (hp : IsProxy p) (op : POp) (q : Need)
    (hq : need .py p op = some q) (s s1 : St A) (w c : Val) (hcur : current .py s q.actor = some (w, c))
    (hstr : op ≠ .str) (hrepr : op ≠ .repr) (hget : ∀ n b, op ≠ .getattr n b)
    (hslot : q.kind = .setattr → q.name ≠ "_wrapped" ∧ q.name ≠ "_checker")
    (h3 : ∀ x y, op = .pow3 x y → x.isProxy = true ∨ y.isProxy = true) (e : Exn)
    (hden : chkCheck X (hasattrX X) q.kind c w q.name s = (.err e, s1)) :
    pop X p op s = (.err e, s1) := by
  obtain ⟨ia, wa, ca, ha⟩ := need_actor _ p hp op q hq
  rw [ha] at hcur
  simp only [current, Option.some.injEq, Prod.mk.injEq] at hcur
  have hwc : proxyWrapped X s ia wa = w ∧ proxyChecker X s ia ca = c := by
    simp only [proxyWrapped, proxyChecker, hX]; exact hcur
  have simple : q.kind = .check → checkNamePy X ia wa ca q.name q.carry s = (.err e, s1) := by
    intro hk
    show (chkCheck X (hasattrX X) .check (proxyChecker X s ia ca) (proxyWrapped X s ia wa) q.name >>= _) s = _
    rw [hwc.1, hwc.2, run_bind, ← hk, hden]
  obtain ⟨id, pw, pc, rfl⟩ := hp
  rw [pop_py hX]
  cases op with
  | getattr n b => exact absurd rfl (hget n b)
  | str => exact absurd rfl hstr
  | repr => exact absurd rfl hrepr
  | compare => simp [need] at hq
  | hash => simp [need] at hq
  | bool => simp [need] at hq
  | lengthHint => simp [need] at hq
  | setattr n v =>
    simp only [need] at hq
    cases hq; cases ha
    obtain ⟨h1, h2⟩ := hslot rfl
    simp only [popPy, setattrPy]
    rw [run_ite, if_neg h1, run_ite, if_neg h2]
    show (chkCheck X (hasattrX X) .setattr (proxyChecker X s ia ca) (proxyWrapped X s ia wa) n >>= _) s = _
    rw [hwc.1, hwc.2, run_bind, hden]
  | delattr n =>
    simp only [need] at hq
    cases hq; cases ha
    obtain ⟨h1, h2⟩ := hslot rfl
    simp only [popPy, delattrPy]
    rw [run_ite, if_neg (by simp only at h1 h2; simp [h1, h2])]
    show (chkCheck X (hasattrX X) .setattr (proxyChecker X s ia ca) (proxyWrapped X s ia wa) n >>= _) s = _
    rw [hwc.1, hwc.2, run_bind, hden]
  | contains v =>
    simp only [need] at hq
    cases hq; cases ha
    show (chkCheck X (hasattrX X) .check (proxyChecker X s ia ca) (proxyWrapped X s ia wa) _ >>= _) s = _
    rw [hwc.1, hwc.2, run_bind, hden]
  | len =>
    simp only [need] at hq
    cases hq; cases ha
    show (chkCheck X (hasattrX X) .check (proxyChecker X s ia ca) (proxyWrapped X s ia wa) _ >>= _) s = _
    rw [hwc.1, hwc.2, run_bind, hden]
  | inplace b o =>
    simp only [need, inNames_eq] at hq
    cases hq; cases ha
    show (chkCheck X (hasattrX X) .check (proxyChecker X s ia ca) (proxyWrapped X s ia wa) _ >>= _) s = _
    rw [hwc.1, hwc.2, run_bind, hden]
  | setitem k v =>
    simp only [need] at hq
    cases hq; cases ha
    show (chkCheck X (hasattrX X) .check (proxyChecker X s ia ca) (proxyWrapped X s ia wa) _ >>= _) s = _
    rw [hwc.1, hwc.2, run_bind, hden]
  | delitem k =>
    simp only [need] at hq
    cases hq; cases ha
    show (chkCheck X (hasattrX X) .check (proxyChecker X s ia ca) (proxyWrapped X s ia wa) _ >>= _) s = _
    rw [hwc.1, hwc.2, run_bind, hden]
  | unop u =>
    simp only [need, unNames_eq] at hq
    cases hq; cases ha
    exact simple rfl
  | binL b o =>
    simp only [need, binNames_eq] at hq
    cases hq; cases ha
    exact simple rfl
  | binR b o =>
    simp only [need, binNames_eq] at hq
    split at hq
    · cases hq
      cases o <;> simp only [reduceCtorEq] at ha
      cases ha
      exact simple rfl
    · next ho =>
      cases hq; cases ha
      cases o <;> first | exact simple rfl | exact absurd rfl ho
  | rpow x m =>
    simp only [need] at hq
    split at hq
    · cases hq
      cases x <;> simp only [reduceCtorEq] at ha
      cases ha
      exact simple rfl
    · next ho =>
      cases hq; cases ha
      cases x <;> first | exact simple rfl | exact absurd rfl ho
  | pow3 x y =>
    simp only [need] at hq
    split at hq
    · cases hq
      cases x <;> simp only [reduceCtorEq] at ha
      cases ha
      exact simple rfl
    · next ho =>
      split at hq
      · cases hq
        cases y <;> simp only [reduceCtorEq] at ha
        cases ha
        cases x <;> first | exact simple rfl | exact absurd rfl ho
      · next ho2 => exact absurd (h3 x y rfl) (by simp [ho, ho2])
  | _ =>
    simp only [need] at hq
    cases hq; cases ha
    exact simple rfl

/-- **C14** Reading an attribute of a pure-Python proxy: an exception of the check that is not an
`AttributeError` is delivered as it is.  An `AttributeError` (such as `ForbiddenAttribute`) makes the
runtime call `__getattr__`, which repeats the check; what that raises is delivered — under the
built-in policies the same exception again, in the unchanged state. -/
theorem C14_denied_getattr_py (X : Ctx A) (hX : X.impl = .py) (id : Nat) (w0 c0 : Val) (n : Name) (inside : Bool)
    (hn : n ∉ freeAttrs) (h1 : n ≠ "_wrapped") (h2 : n ≠ "_checker") (s s1 : St A) (w c : Val)
    (hcur : current .py s (.proxy id w0 c0) = some (w, c)) (e : Exn)
    (hden : chkCheck X (hasattrX X) .getattr c w n s = (.err e, s1)) :
    (e.isAttr = false → pop X (.proxy id w0 c0) (.getattr n inside) s = (.err e, s1))
    ∧ (s1 = s → pop X (.proxy id w0 c0) (.getattr n inside) s = (.err e, s))
    ∧ (∃ e' s', pop X (.proxy id w0 c0) (.getattr n inside) s = (.err e', s')
        ∨ pop X (.proxy id w0 c0) (.getattr n inside) s = (.diverge, s')) := by
  simp only [current, Option.some.injEq, Prod.mk.injEq] at hcur
  have hwc : proxyWrapped X s id w0 = w ∧ proxyChecker X s id c0 = c := by
    simp only [proxyWrapped, proxyChecker, hX]; exact hcur
  have hun : n ∉ pyUncheckedAttrs := hn
  have first : getattributePy X (hasattrX X) id w0 c0 n inside s = (.err e, s1) := by
    unfold getattributePy
    rw [run_ite, if_neg (by simp [h1, h2])]
    show (if n = "_wrapped" then pure _ else if n = "_checker" then pure _ else _ : M A Val) s = _
    rw [run_ite, if_neg h1, run_ite, if_neg h2]
    unfold getattributeCheckPy
    rw [if_neg hun, run_bind, hwc.1, hwc.2, hden]
  have run : pop X (.proxy id w0 c0) (.getattr n inside) s
      = if e.isAttr then getattrHookPy X (hasattrX X) id w0 c0 n s1 else (.err e, s1) := by
    rw [pop_py hX]
    show M.tryCatch (getattributePy X (hasattrX X) id w0 c0 n inside) Exn.isAttr _ s = _
    rw [run_tryCatch, first]
  rw [run]
  refine ⟨fun h => by rw [h]; rfl, fun h => ?_, ?_⟩
  · subst h
    split
    · show (chkCheck X (hasattrX X) .getattr (proxyChecker X s1 id c0) (proxyWrapped X s1 id w0) n >>= _) s1 = _
      rw [hwc.1, hwc.2, run_bind, hden]
    · rfl
  · split
    · show ∃ e' s', (chkCheck X (hasattrX X) .getattr (proxyChecker X s1 id c0) (proxyWrapped X s1 id w0) n >>= _) s1 = _ ∨
        (chkCheck X (hasattrX X) .getattr (proxyChecker X s1 id c0) (proxyWrapped X s1 id w0) n >>= _) s1 = _
      rw [run_bind]
      rcases chkCheck X (hasattrX X) .getattr (proxyChecker X s1 id c0) (proxyWrapped X s1 id w0) n s1 with ⟨r, s2⟩
      cases r with
      | ok _ => exact ⟨_, _, .inl rfl⟩
      | err e => exact ⟨_, _, .inl rfl⟩
      | diverge => exact ⟨.typeError, _, .inr rfl⟩
    · exact ⟨_, _, .inl rfl⟩

/-- **C14** With ordinary checkers and a built-in policy (or no interaction) a refusing check leaves the
whole state as it was, so that the refused operation has no effect whatsoever. -/
theorem C14_state_unchanged (X : Ctx A) (hX : X.impl = .c) (p : Val) (hp : IsProxy p) (op : POp) (q : Need)
    (hq : need .c p op = some q) (ia : Nat) (w c : Val) (ha : q.actor = .proxy ia w c) (hslot : ¬ NoSlot .c op)
    (hstr : op ≠ .str) (hrepr : op ≠ .repr) (s : St A) (hc : Ordinary c) (hb : BuiltinOnly X s) (hn : q.name ≠ "__iter__")
    (e : Exn) (hden : (chkCheck X (hasattrX X) q.kind c w q.name s).1 = .err e) :
    pop X p op s = (.err e, s) :=
  C14_denied_c X hX p hp op q hq ia w c ha hslot hstr hrepr s s e
    (Prod.ext hden (check_pure X _ q.kind c w q.name s hc hb hn))

/-- A refused `__setitem__`: hypotheses met, in both implementations. -/
example : ∀ impl, need impl (.proxy 70 (.obj 1) Ex.c1) (.setitem (.int 1) (.int 2))
      = some ⟨.proxy 70 (.obj 1) Ex.c1, .check, "__setitem__", fun w => .special "__setitem__" w [.int 1, .int 2]⟩
    ∧ (chkCheck (Ex.X impl) (hasattrX (Ex.X impl)) .check Ex.c1 (.obj 1) "__setitem__" (Ex.s1 none))
      = (.err (.forbidden "__setitem__" (.obj 1)), Ex.s1 none)
    ∧ Ordinary Ex.c1 ∧ BuiltinOnly (Ex.X impl) (Ex.s1 none) := by
  intro impl
  refine ⟨by cases impl <;> rfl, by cases impl <;> rfl, trivial, ?_⟩
  intro ix h
  cases h

/-- The example world re-points no proxy, and a granted operation is carried out. -/
example : (∀ id, NotRepointed Ex.W id)
    ∧ (pop (Ex.X .c) (.proxy 70 (.obj 1) Ex.c1) (.getattr "a" false) (Ex.s1 none)).2.trace.head?
      = some (.performed (.getattr (.obj 1) "a")) := by
  refine ⟨fun id r s => ?_, rfl⟩
  simp only [Ex.W]
  split <;> exact ⟨rfl, rfl⟩

/-! ## C13 fails for pure-Python proxies that are re-pointed during the check -/

/-- A policy that re-points proxy 70 while it is being asked. -/
def repointing : World Unit :=
  { Ex.W with
    apply := fun r s =>
      match r with
      | .method (.obj 50) "checkPermission" _ =>
        (.ok (.bool true), { s with ovW := fun k => if k = 70 then some (.obj 8) else s.ovW k })
      | _ => (.ok (.obj 7), s) }

/-- **C13** Without that hypothesis mediation fails for pure-Python proxies: `_wrapped` is read again
after the check, so that an object is operated on that was never checked. -/
theorem C13_py_toctou : ∃ (X : Ctx Unit) (p : Val) (op : POp) (s : St Unit), X.impl = .py ∧ IsProxy p ∧
    ¬ NewEvents s (pop X p op s).2 (Only (Allowed X p op s)) := by
  refine ⟨⟨repointing, .py, 0, 5, 3⟩, .proxy 70 (.obj 1) (.checker 60 30 31), .getitem (.int 1),
    { Ex.s1 (some (.obj 50)) with dicts := fun _ => [("__getitem__", Ex.view)] }, rfl, ⟨_, _, _, rfl⟩, ?_⟩
  rintro ⟨es, h1, h2⟩
  have hmem : Event.performed (.special "__getitem__" (.obj 8) [.int 1]) ∈ es := by
    have : es = [.probed (.method (.obj 50) "checkPermission" [Ex.view, .obj 1]),
      .performed (.special "__getitem__" (.obj 8) [.int 1]), .probed (.getattr (.obj 7) "__Security_checker__")] := by
      have h3 := h1.symm
      exact List.append_cancel_left (as := []) h3
    rw [this]; simp
  have := h2 _ hmem
  simp only [Only, Allowed, need] at this
  obtain ⟨w, c, hcur, h⟩ := this
  have : w = .obj 1 := by
    have h0 : current Impl.py { Ex.s1 (some (.obj 50)) with dicts := fun _ => [("__getitem__", Ex.view)] }
      (.proxy 70 (.obj 1) (.checker 60 30 31)) = some (.obj 1, .checker 60 30 31) := rfl
    rw [h0] at hcur; cases hcur; rfl
  subst this
  rcases h with ⟨h, _⟩ | ⟨h, _⟩
  · exact absurd h (by decide)
  · simp [Carries] at h

end ZS.Props
