import Verif.Lemmas.CMediation
import Verif.Props.CMem

/-!
# C64, C65: complete mediation in the C code, whatever other code does

For any answers of other code, unlike C63 (which explains the answers).
-/

namespace ZS.Props
open ZS ZS.CM
variable {E : Env} {α : Type}

/-- C64: `check` (_proxy.c:128-152) succeeds only after the calls that grant the name. -/
theorem C64_check (self : Nat) (meth : String) (name : Nat) (m m' : Mem) (i : Int) (h : check E self meth name m = .ok i m') :
    ∃ l, m'.asked = l.reverse ++ m.asked ∧ NoUser l ∧ (0 ≤ i → Passes E m self meth name l) := by
  obtain ⟨-, l, h1, h2⟩ := leaves_check m self meth name i m' h
  exact ⟨l, h1, h2.2, h2.1⟩

theorem done_obj {x : C Ptr} {self : Nat} {meth : String} {name : Nat} {u : UserFn} {args : List Nat}
    (hc : CheckedObj E x self meth name u args) (m : Mem) : Leaves x m (Done E m self meth name u args) := by
  have hapi : ∀ (u : UserFn) (args : List Nat) (m' : Mem) (Q : Ptr → List Ask → Prop), Q .none [] →
      (∀ e r, Q (if r.null then .none else some r.obj) [⟨.user u, args, e, r⟩]) → Leaves (api E u args) m' Q :=
    fun u args m' Q _ h => .callObj' h
  have hin : ∀ {fuel self n : Nat} {op : String} {args : List Nat} {m : Mem}, Leaves (do
      let i ← check E self "check" n
      if 0 ≤ i then do
        let result ← api E (.inplace op) args
        if result = some (E.wrapped self) then do
          decref E (E.wrapped self)
          incref E self
          pure (some self)
        else proxyResult E fuel self result
      else pure .none) m (Done E m self "check" n (.inplace op) args) := by
    intro fuel self n op args m
    refine leaves_after (fun l hl m' _ => .pure (.inl ⟨by simpa using hl, .inl rfl⟩)) fun l hp hl m' _ => ?_
    refine .bind (.callObj' fun e r m' _ => .ite (fun h => ?_) fun h => leaves_proxyResult fun p l' hl' ho => ?_)
    · have hr : r.null = false ∧ r.obj = E.wrapped self := by
        split at h
        · cases h
        · exact ⟨by simpa using ‹¬ r.null = true›, by simpa using h⟩
      refine .bind (.decref fun e1 r1 _ _ => .bind (.incref fun _ _ => .pure ?_))
      exact .inr ⟨l, e, r, [⟨.destroy, [E.wrapped self], e1, r1⟩], by simp, hp, hl, .single rfl, fun _ => .same hr.1 hr.2⟩
    · refine .inr ⟨l, e, r, l', by simp, hp, hl, hl', fun hn => .other (by simp) (by simp) (fun op _ h1 h2 => h ?_) (ho hn)⟩
      simp [h1, h2]
  have hpow : ∀ {fuel self n : Nat} {args : List Nat} {m : Mem}, Leaves (powWith E fuel self n args) m (Done E m self "check" n .power args) :=
    leaves_op (by simp) (by simp) (by simp) (hapi _ _)
  cases hc with
  | getattr => exact leaves_op (by simp) (by simp) (by simp) (hapi _ _)
  | unary op hop =>
    refine leaves_op ?_ ?_ (by simp) (hapi _ _)
    all_goals
      intro h
      injection h with h
      subst h
      revert hop
      decide
  | number op hop =>
    refine leaves_op ?_ ?_ (by simp) fun m' Q h0 h => ?_
    · intro h
      injection h with h
      subst h
      revert hop
      decide
    · intro h
      injection h with h
      subst h
      revert hop
      decide
    · exact .bind (.use fun _ _ => .ite (fun _ => hapi _ _ _ _ h0 h) fun _ => .bind (.setErr fun _ _ => .pure h0))
  | call => exact leaves_op (by simp) (by simp) (by simp) (hapi _ _)
  | getitem => exact leaves_op (by simp) (by simp) (by simp) (hapi _ _)
  | iter => exact leaves_op (by simp) (by simp) (by simp) (hapi _ _)
  | next => exact leaves_op (by simp) (by simp) (by simp) fun m' Q _ h => .callNext' h
  | binL op rop hp =>
    unfold check2
    simp only [hp, if_true]
    exact .bind (.useAll fun m' hm => (leaves_op (by simp) (by simp) (by simp) (hapi _ _)).mono fun _ _ h => h.congr hm)
  | binR op rop ho hp =>
    unfold check2
    simp only [ho, hp, if_true, Bool.false_eq_true, if_false]
    exact .bind (.useAll fun m' hm => (leaves_op (by simp) (by simp) (by simp) (hapi _ _)).mono fun _ _ h => h.congr hm)
  | inplace op => exact hin
  | ipow => exact hin
  | pow hp =>
    unfold proxyPow
    simp only [hp, if_true]
    exact .bind (.useAll fun m' hm => hpow.mono fun _ _ h => h.congr hm)
  | rpow ho hp =>
    unfold proxyPow
    simp only [ho, hp, if_true, Bool.false_eq_true, if_false]
    exact .bind (.useAll fun m' hm => hpow.mono fun _ _ h => h.congr hm)
  | pow3 h1 h2 hp =>
    unfold proxyPow
    simp only [h1, h2, hp, if_true, Bool.false_eq_true, if_false]
    exact .bind (.useAll fun m' hm => hpow.mono fun _ _ h => h.congr hm)
  | text op hop =>
    have hop : op = "__str__" ∨ op = "__repr__" := by simpa using hop
    have hu : UserFn.special op = .special "__str__" ∨ UserFn.special op = .special "__repr__" := by rcases hop with rfl | rfl <;> simp
    refine leaves_after (fun l hl m' _ => .bind (.setErr fun _ _ => ?_)) fun l hp hl m' _ => ?_
    · exact (Quiet.defaultRepr _ _).mono fun _ l' hl' => .inl ⟨by simpa using hl.append hl', .inr hu⟩
    · exact .callObj' fun e r => .inr ⟨l, e, r, [], by simp, hp, hl, .nil, fun _ => .text hu⟩

/-- C64: every such operation on a proxy is carried out at most once, on the wrapped object, and only after the check. -/
theorem C64_objects {x : C Ptr} {self : Nat} {meth : String} {name : Nat} {u : UserFn} {args : List Nat}
    (hc : CheckedObj E x self meth name u args) : Mediated E x self meth name u args := by
  intro m a m' h
  obtain ⟨-, l, h1, h2⟩ := done_obj hc m a m' h
  rcases h2 with h2 | ⟨pre, e, r, post, h3, h4, h5, h6, -⟩
  · exact ⟨l, h1, .inl h2.1⟩
  · exact ⟨l, h1, .inr ⟨pre, e, r, post, h3, h4, h5, h6⟩⟩

theorem done_int {x : C Int} {self : Nat} {meth : String} {name : Nat} {u : UserFn} {args : List Nat}
    (hc : CheckedInt E x self meth name u args) (m : Mem) : Leaves x m fun _ l => NoUser l ∨
      ∃ pre e r post, l = pre ++ ⟨.user u, args, e, r⟩ :: post ∧ Passes E m self meth name pre ∧ NoUser pre ∧ NoUser post := by
  have key : ∀ {self : Nat} {meth : String} {name : Nat} {u : UserFn} {args : List Nat}, Leaves (do
      let i ← check E self meth name
      if 0 ≤ i then callInt E .int (.user u) args
      else pure (-1)) m fun _ l => NoUser l ∨
      ∃ pre e r post, l = pre ++ ⟨.user u, args, e, r⟩ :: post ∧ Passes E m self meth name pre ∧ NoUser pre ∧ NoUser post := by
    intro self meth name u args
    refine leaves_after (fun l hl m' _ => .pure (.inl (by simpa using hl))) fun l hp hl m' _ => ?_
    exact .callInt fun e r => .inr ⟨l, e, r, [], by simp, hp, hl, .nil⟩
  cases hc <;> exact key

/-- C64 for the operations that return numbers. -/
theorem C64_ints {x : C Int} {self : Nat} {meth : String} {name : Nat} {u : UserFn} {args : List Nat}
    (hc : CheckedInt E x self meth name u args) : Mediated E x self meth name u args := by
  intro m a m' h
  obtain ⟨-, l, h1, h2⟩ := done_int hc m a m' h
  exact ⟨l, h1, h2⟩

/-- C64 for access by index. -/
theorem C64_index {α : Type} {i : Int} {x : C α} {self : Nat} {name : Nat} {u : UserFn} {args : Nat → List Nat}
    (hc : CheckedAt E i x self name u args) : MediatedAt E i x self name u args := by
  have key : ∀ {β : Type} {k : Nat → C β} {b : β} {self : Nat} {name : Nat} {u : UserFn} {args : Nat → List Nat} {m : Mem},
      (∀ o m', m'.getperms = m.getperms → Leaves (k o) m' fun _ l => NoUser l ∨
        ∃ pre e r post, l = pre ++ ⟨.user u, args o, e, r⟩ :: post ∧ Passes E m' self "check" name pre ∧ NoUser pre ∧ NoUser post) →
      Leaves (do
        let key ← callObj E .api (.fromLong i) []
        match key with
        | .none => pure b
        | some key => do
          let res ← k key
          decref E key
          pure res) m fun _ l => (NoUser l ∨ ∃ e0 k pre e r post, l = ⟨.fromLong i, [], e0, k⟩ :: pre ++ ⟨.user u, args k.obj, e, r⟩ :: post ∧
            k.null = false ∧ Passes E m self "check" name pre ∧ NoUser pre ∧ NoUser post) := by
    intro β k b self name u args m hk
    refine .bind (.callObj (fun _ _ _ _ _ => .pure (.inl (.single rfl))) fun e0 r0 h0 m' hm => .bind ((hk r0.obj m' hm).mono fun p l hl _ _ => ?_))
    refine .bind (.decref fun e1 r1 _ _ => .pure ?_)
    rcases hl with hl | ⟨pre, e, r, post, h1, h2, h3, h4⟩
    · exact .inl (by simpa using (NoUser.single (f := .fromLong i) (e := e0) (r := r0) rfl).append (hl.append (.single (e := e1) (r := r1) rfl)))
    · exact .inr ⟨e0, r0, pre, e, r, post ++ [⟨.destroy, [r0.obj], e1, r1⟩], by simp [h1], h0, h2.congr hm, h3, h4.append (.single rfl)⟩
  intro m a m' h
  have fin : ∀ {y : C α}, Leaves y m (fun _ l => (NoUser l ∨ ∃ e0 k pre e r post, l = ⟨.fromLong i, [], e0, k⟩ :: pre ++ ⟨.user u, args k.obj, e, r⟩ :: post ∧
            k.null = false ∧ Passes E m self "check" name pre ∧ NoUser pre ∧ NoUser post)) → y m = .ok a m' → _ := fun hl hy => (hl a m' hy).2
  cases hc with
  | get =>
    refine fin ?_ h
    unfold proxyIgetitem
    refine key (k := proxyGetitem E _ self) (args := fun k => [E.wrapped self, k]) fun o m' hm => (done_obj .getitem m').mono fun _ l h => ?_
    rcases h with h | ⟨pre, e, r, post, h1, h2, h3, h4, -⟩
    · exact .inl h.1
    · exact .inr ⟨pre, e, r, post, h1, h2, h3, h4⟩
  | set => exact fin (key fun o m' hm => done_int .setitem m') h
  | del => exact fin (key fun o m' hm => done_int .delitem m') h

/-- C64: the functions that do not check carry out just their operation on the wrapped object. -/
theorem C64_unchecked {x : C α} {u : UserFn} {args : List Nat} (hc : Unchecked E x u args) : Direct x u args := by
  intro m a m' h
  have fin : ∀ {y : C α}, Leaves y m (fun _ l => ∃ r e post, l = ⟨.user u, args, e, r⟩ :: post ∧ NoUser post) → y m = .ok a m' →
      ∃ r e post, m'.asked = (⟨.user u, args, e, r⟩ :: post).reverse ++ m.asked ∧ NoUser post := by
    intro y hl hy
    obtain ⟨-, l, h1, r, e, post, rfl, h3⟩ := hl a m' hy
    exact ⟨r, e, post, h1, h3⟩
  cases hc with
  | compare op =>
    refine fin (.bind (.callObj' fun e r m' _ => .ite (fun _ => .pure ⟨r, e, [], rfl, .nil⟩) fun _ => ?_)) h
    exact (Quiet.proxyResult _ _ _ _).mono fun _ l hl => ⟨r, e, l, rfl, hl⟩
  | hash => exact fin (.callHash fun e r => ⟨r, e, [], rfl, .nil⟩) h
  | bool => exact fin (.callInt fun e r => ⟨r, e, [], rfl, .nil⟩) h
  | lengthHint =>
    refine fin ?_ h
    refine .bind (.callObj (fun e r _ m' _ => ?_) fun e r _ m' _ => .pure ⟨r, e, [], rfl, .nil⟩)
    refine .bind (.callTest fun e1 r1 _ _ => .ite (fun _ => .bind (.setErr fun _ _ => .bind (.incref fun _ _ => .pure ?_))) fun _ => .pure ?_)
    · exact ⟨r, e, [⟨.exceptionMatches, [E.const "AttributeError"], e1, r1⟩], rfl, .single rfl⟩
    · exact ⟨r, e, [⟨.exceptionMatches, [E.const "AttributeError"], e1, r1⟩], rfl, .single rfl⟩

/-- C64: nothing is carried out for the user by operators without a proxy among the operands, by the constructor of
proxies and by the functions of checkers. -/
theorem C64_passive {x : C α} (hc : Passive E x) : Idle x := by
  intro m a m' h
  have fin : ∀ {y : C α}, Quiet y → y m = .ok a m' → _ := fun hl hy => (hl m a m' hy).2
  cases hc with
  | binary h1 h2 =>
    refine fin ?_ h
    unfold check2
    simp only [h1, h2, Bool.false_eq_true, if_false]
    quiet
  | pow h1 h2 h3 =>
    refine fin ?_ h
    unfold proxyPow
    simp only [h1, h2, Bool.false_eq_true, if_false]
    refine .bind (.useAll _) fun _ => ?_
    split
    · simp only [h3 _ rfl, Bool.false_eq_true, if_false]
      quiet
    · quiet
  | new => exact fin (.proxyNew _ _ _) h
  | getChecker => exact fin (.getChecker _) h
  | getObject => exact fin (.getObject _) h
  | permissionId => exact fin (.permissionId _ _) h
  | setattrPermissionId => exact fin (.setattrPermissionId _ _) h
  | checkInt => exact fin (.checkInt _ _ _) h
  | check => exact fin (.checkerCheck _ _ _) h
  | checkSetattr => exact fin (.checkerCheckSetattr _ _ _) h
  | select => exact fin (.selectChecker _ _) h
  | proxy => exact fin (.checkerProxy _ _) h

/-- C65: what such an operation returns is what the checker makes of the result of the operation. -/
theorem C65_objects {x : C Ptr} {self : Nat} {meth : String} {name : Nat} {u : UserFn} {args : List Nat}
    (hnone : E.isChecker E.none = false) (hc : CheckedObj E x self meth name u args) : Protected E x self meth name u args := by
  intro m a m' h
  obtain ⟨-, l, h1, h2⟩ := done_obj hc m a m' h
  rcases h2 with h2 | ⟨pre, e, r, post, h3, h4, h5, h6, h7⟩
  · exact ⟨l, h1, .inl h2⟩
  · exact ⟨l, h1, .inr ⟨pre, e, r, post, h3, h4, h5, h6, h7 hnone⟩⟩

/-- C65 for comparisons: True and False are handed out as they are. -/
theorem C65_compare (hnone : E.isChecker E.none = false) (fuel self o : Nat) (op : String) (m m' : Mem) (a : Ptr)
    (h : proxyRichcompare E fuel op self o m = .ok a m') :
    ∃ r e post, m'.asked = (⟨.user (.compare op), [E.wrapped self, o], e, r⟩ :: post).reverse ++ m.asked ∧
      (r.null = false ∧ (r.obj = E.true_ ∨ r.obj = E.false_) ∧ a = some r.obj ∧ post = [] ∨ HandsOut E self r a post) := by
  have hl : Leaves (proxyRichcompare E fuel op self o) m fun a l => ∃ r e post, l = ⟨.user (.compare op), [E.wrapped self, o], e, r⟩ :: post ∧
      (r.null = false ∧ (r.obj = E.true_ ∨ r.obj = E.false_) ∧ a = some r.obj ∧ post = [] ∨ HandsOut E self r a post) := by
    refine .bind (.callObj' fun e r m' _ => .ite (fun hr => .pure ?_) fun _ => leaves_proxyResult fun p l _ ho => ⟨r, e, l, rfl, .inr (ho hnone)⟩)
    refine ⟨r, e, [], rfl, .inl ?_⟩
    cases hn : r.null <;> simp [hn] at hr ⊢
    exact hr
  obtain ⟨-, l, h1, r, e, post, rfl, h2⟩ := hl a m' h
  exact ⟨r, e, post, h1, h2⟩

/-- C65: what `Checker_proxy` (_zope_security_checker.c:261-313) makes of an object. -/
theorem C65_proxy (hnone : E.isChecker E.none = false) (fuel v : Nat) (m m' : Mem) (a : Ptr) (h : checkerProxy E fuel v m = .ok a m') :
    ∃ l, m'.asked = l.reverse ++ m.asked ∧ NoUser l ∧ Wraps E v a l := by
  obtain ⟨-, l, h1, h2⟩ := ((leaves_checkerProxy hnone).and_quiet (.checkerProxy fuel v)) a m' h
  exact ⟨l, h1, h2.2, h2.1⟩

/-! ### Cases -/

namespace CSample

/-- The result and the calls, the earliest first. -/
def traced {α : Type} : Out α → Option (α × List (Fn × List Nat))
  | .ok a m => some (a, (m.asked.map fun k => (k.fn, k.args)).reverse)
  | _ => none

/-- `proxy.title` as above: one operation, after the public permission was found, and a new proxy for the result. -/
example : traced (proxyGetattro (sampleEnv (answers goodAnswers)) 5 4 21 sampleMem) = some (some 301,
    [(.dictGet, [150, 21]), (.user .getAttr, [12, 21]), (.getAttr, [300, 20]), (.dictGet, [9, 11]), (.call, [14, 300, 13]),
     (.destroy, [13]), (.destroy, [300])]) := by decide +kernel

example : Mediated (sampleEnv (answers goodAnswers)) (proxyGetattro (sampleEnv (answers goodAnswers)) 5 4 21) 4 "check_getattr" 21 .getAttr [12, 21] :=
  C64_objects .getattr

example : Protected (sampleEnv (answers goodAnswers)) (proxyGetattro (sampleEnv (answers goodAnswers)) 5 4 21) 4 "check_getattr" 21 .getAttr [12, 21] :=
  C65_objects rfl .getattr

/-- The operation of this run was granted by the public permission, and the result covered by a new proxy. -/
example : Passes (sampleEnv (answers goodAnswers)) sampleMem 4 "check_getattr" 21 [⟨.dictGet, [150, 21], .nothing, { obj := 6 }⟩] :=
  .native (by decide) rfl (.isPublic rfl rfl)

example : Covers (sampleEnv (answers goodAnswers)) 4 300 (some 301) [⟨.getAttr, [300, 20], .nothing, { null := true }⟩,
    ⟨.dictGet, [9, 11], .nothing, { obj := 13 }⟩, ⟨.call, [14, 300, 13], .nothing, { obj := 301 }⟩, ⟨.destroy, [13], .nothing, {}⟩] :=
  .native rfl (Wraps.selected (E := sampleEnv (answers goodAnswers)) (v := 300) (c := 13) (c' := 13) (e1 := .nothing) (e2 := .nothing)
    (e3 := .nothing) (r1 := { null := true }) (r2 := { obj := 301 }) (r3 := {}) (l := [⟨.dictGet, [9, 11], .nothing, { obj := 13 }⟩]) (l' := []) rfl rfl
    (Registered.found (E := sampleEnv (answers goodAnswers)) (v := 300) (e := .nothing) (r := { obj := 13 }) rfl (by decide) (by decide)) (.done rfl) rfl)

/-- An operation without calls before it is not granted. -/
example : ¬ Passes (sampleEnv (answers goodAnswers)) sampleMem 4 "check_getattr" 21 [] := by
  intro h
  cases h with
  | native _ _ h => generalize hl : ([] : List Ask) = l at h; cases h <;> simp_all

/-- Nor is one for which the interaction said no. -/
example : ¬ Passes (sampleEnv (answers [])) sampleMem 4 "check" 20 [⟨.dictGet, [150, 20], .nothing, { obj := 160 }⟩,
    ⟨.getAttr, [5, 20], .nothing, { obj := 170 }⟩, ⟨.callMethod, [170, 20, 160, 12], .nothing, { obj := 171 }⟩, ⟨.destroy, [170], .nothing, {}⟩,
    ⟨.isTrue, [171], .nothing, { num := 0 }⟩, ⟨.destroy, [171], .nothing, {}⟩] := by
  intro h
  cases h with
  | native _ _ h =>
    generalize hl : ([_, _, _, _, _, _] : List Ask) = l at h
    cases h with
    | isPublic => simp_all
    | permitted _ _ _ _ h5 =>
      simp only [List.cons.injEq, Ask.mk.injEq] at hl
      rw [← hl.2.2.2.2.1.2.2.2] at h5
      cases h5
    | available h => cases h <;> simp_all
    | noIter h => cases h <;> simp_all

/-- A permission that the interaction grants. -/
def granted : List Reply := [{ obj := 160 }, { obj := 170 }, { obj := 171 }, {}, { num := 1 }, {}, { num := 5 }]

example : traced (proxyLength (sampleEnv (answers granted)) 4 sampleMem) = some (5,
    [(.dictGet, [150, 20]), (.getAttr, [5, 20]), (.callMethod, [170, 20, 160, 12]), (.destroy, [170]), (.isTrue, [171]), (.destroy, [171]),
     (.user (.special "__len__"), [12])]) := by decide +kernel

example : Mediated (sampleEnv (answers granted)) (proxyLength (sampleEnv (answers granted)) 4) 4 "check" 20 (.special "__len__") [12] :=
  C64_ints .len

/-- And one that it does not grant. -/
def denied : List Reply := [{ obj := 22 }, { obj := 170 }, { obj := 171 }, {}, { num := 0 }, {}, { obj := 180 }, {}]

example : traced (proxyLength (sampleEnv (answers denied)) 4 sampleMem) = some (-1,
    [(.dictGet, [150, 20]), (.getAttr, [5, 20]), (.callMethod, [170, 20, 22, 12]), (.destroy, [170]), (.isTrue, [171]), (.destroy, [171]),
     (.tuple, [12, 20, 22]), (.destroy, [180])]) := by decide +kernel

/-- `C64_check` for these two runs. -/
example : (traced (check (sampleEnv (answers granted)) 4 "check" 20 sampleMem)).map Prod.fst = some 0 := by decide +kernel
example : (traced (check (sampleEnv (answers denied)) 4 "check" 20 sampleMem)).map Prod.fst = some (-1) := by decide +kernel

/-- Access by index. -/
def indexed : List Reply := [{ obj := 190 }, { obj := 6 }, { obj := 300 }, { null := true }, { obj := 13 }, { obj := 301 }, {}, {}, {}]

example : traced (proxyIgetitem (sampleEnv (answers indexed)) 5 4 2 sampleMem) = some (some 301,
    [(.fromLong 2, []), (.dictGet, [150, 20]), (.user (.special "__getitem__"), [12, 190]), (.getAttr, [300, 20]), (.dictGet, [9, 11]),
     (.call, [14, 300, 13]), (.destroy, [13]), (.destroy, [300]), (.destroy, [190])]) := by decide +kernel

example : MediatedAt (sampleEnv (answers indexed)) 2 (proxyIgetitem (sampleEnv (answers indexed)) 5 4 2) 4 20 (.special "__getitem__")
    fun k => [12, k] := C64_index .get

/-- Functions that do not check. -/
example : traced (proxyBool (sampleEnv (answers [{ num := 1 }])) 4 sampleMem) = some (1, [(.user (.special "__bool__"), [12])]) := by decide +kernel

example : Direct (proxyBool (sampleEnv (answers [{ num := 1 }])) 4) (.special "__bool__") [12] := C64_unchecked .bool

/-- An operator without proxies. -/
example : traced (check2 (sampleEnv (answers [])) 5 12 13 20 20 (fun x y => api (sampleEnv (answers [])) (.binary "__add__") [x, y]) sampleMem) =
    some (some 1, []) := by decide +kernel

example : Idle (check2 (sampleEnv (answers [])) 5 12 13 20 20 (fun x y => api (sampleEnv (answers [])) (.binary "__add__") [x, y])) :=
  C64_passive (.binary rfl rfl)

/-- A comparison that gives True, and one that gives an object. -/
example : traced (proxyRichcompare (sampleEnv (answers [{ obj := 2 }])) 5 "__eq__" 4 15 sampleMem) =
    some (some 2, [(.user (.compare "__eq__"), [12, 15])]) := by decide +kernel

example : traced (proxyRichcompare (sampleEnv (answers (goodAnswers.drop 1))) 5 "__eq__" 4 15 sampleMem) = some (some 301,
    [(.user (.compare "__eq__"), [12, 15]), (.getAttr, [300, 20]), (.dictGet, [9, 11]), (.call, [14, 300, 13]), (.destroy, [13]),
     (.destroy, [300])]) := by decide +kernel

/-- `Checker_proxy` for an object with `NoProxy` registered for its type. -/
example : traced (checkerProxy (sampleEnv (answers [{ null := true }, { obj := 7 }, {}])) 5 12 sampleMem) = some (some 12,
    [(.getAttr, [12, 20]), (.dictGet, [9, 11]), (.destroy, [0])]) := by decide +kernel

end CSample

end ZS.Props
