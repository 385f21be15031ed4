import Verif.Model.CRun
import Verif.Model.Slots
import Verif.Spec.CMem

/-!
# Lemmas for running the C source
-/

namespace ZS.CM

theorem C.bind_assoc (x : C α) (f : α → C β) (g : β → C γ) : (x >>= f) >>= g = x >>= fun a => f a >>= g := by
  funext m
  show (match (match x m with | .ok a m => f a m | .fault f m => .fault f m | .diverge => .diverge) with
    | .ok a m => g a m | .fault f m => .fault f m | .diverge => .diverge)
    = (match x m with | .ok a m => (f a >>= g) m | .fault f m => .fault f m | .diverge => .diverge)
  cases x m <;> rfl

theorem C.pure_bind (a : α) (f : α → C β) : (pure a : C α) >>= f = f a := rfl

theorem C.bind_pure (x : C α) : x >>= pure = x := by
  funext m
  show (match x m with | .ok a m => Out.ok a m | .fault f m => .fault f m | .diverge => .diverge) = x m
  cases x m <;> rfl

theorem C.step {x : C α} {k k' : α → C β} (h : ∀ a, k a = k' a) : x >>= k = x >>= k' := by rw [funext h]

theorem C.fail_bind (f : Fault) (k : α → C β) : (fail f : C α) >>= k = fail f := rfl

theorem use_held {E : Env} {o : Nat} (h : E.held o = true) : use E o = pure () := by
  funext m
  simp [use, alive, h]
  rfl

/-- Reading a member again gives the same. -/
theorem load_load_get (o : Nat) (k : Ptr → Ptr → C α) :
    (loadGetperms o >>= fun p => loadGetperms o >>= fun q => k p q) = loadGetperms o >>= fun p => k p p := by
  funext m
  show k _ _ _ = k _ _ _
  congr 1
  simp only [Mem.mk.injEq, and_true, true_and]
  funext x
  by_cases h : m.getperms o = some x <;> simp [h]

theorem load_load_set (o : Nat) (k : Ptr → Ptr → C α) :
    (loadSetperms o >>= fun p => loadSetperms o >>= fun q => k p q) = loadSetperms o >>= fun p => k p p := by
  funext m
  show k _ _ _ = k _ _ _
  congr 1
  simp only [Mem.mk.injEq, and_true, true_and]
  funext x
  by_cases h : m.setperms o = some x <;> simp [h]

end ZS.CM

namespace ZS.CS
open ZS.CM

/-- What a host is assumed to be like: statics and what proxies refer to are kept, and slots are absent from tables that are. -/
structure Host.Ok (H : Host) : Prop where
  kept : Kept H.E
  assAbsent : ∀ o, H.noMapping o = true → H.E.assSlot o = .absent
  subAbsent : ∀ o, H.noMapping o = true → H.E.subSlot o = .absent
  number : ∀ o, H.noNumber o = true → H.E.hasNumber o = false

/-- The function runs as the program of the model, at any depth that is enough. -/
def RunsAs (H : Host) (n : Nat) (f : String) (vs : List V) (x : C α) (r : α → V) : Prop :=
  ∀ d, n ≤ d → run H d f vs = x >>= fun a => pure (r a)

theorem truth_ofBool (H : Host) (b : Bool) : truth H (.ofBool b) = b := by cases b <;> rfl

theorem truth_ptr (H : Host) (p : Ptr) : truth H (.ptr p) = p.isSome := rfl
theorem truth_int (H : Host) (i : Int) : truth H (.int i) = decide (i ≠ 0) := rfl

/-- What reading a member leaves: reading it again changes nothing. -/
theorem step_get {o : Nat} {k k' : Ptr → C α} (h : ∀ p m, loadGetperms o m = .ok p m → k p m = k' p m) :
    loadGetperms o >>= k = loadGetperms o >>= k' := by
  funext m
  refine h (m.getperms o) _ ?_
  simp only [loadGetperms, Out.ok.injEq, Mem.mk.injEq, and_true, true_and]
  funext x
  by_cases h : m.getperms o = some x <;> simp [h]

theorem step_set {o : Nat} {k k' : Ptr → C α} (h : ∀ p m, loadSetperms o m = .ok p m → k p m = k' p m) :
    loadSetperms o >>= k = loadSetperms o >>= k' := by
  funext m
  refine h (m.setperms o) _ ?_
  simp only [loadSetperms, Out.ok.injEq, Mem.mk.injEq, and_true, true_and]
  funext x
  by_cases h : m.setperms o = some x <;> simp [h]

theorem C.ok_bind {x : C α} {k : α → C β} {m m' : Mem} {a : α} (h : x m = .ok a m') : (x >>= k) m = k a m' := by
  show (match x m with | .ok a m => k a m | .fault f m => .fault f m | .diverge => .diverge) = _
  rw [h]

theorem getD_eq_iff (t : List Char) (i : Nat) : t.getD i '\x00' = '_' ↔ t[i]? = some '_' := by
  rw [List.getD_eq_getElem?_getD]
  cases t[i]? with
  | none => simp
  | some c => simp

theorem obj_ptr (H : Host) (p : Ptr) : V.obj H (.ptr p) = p := rfl
theorem obj_name (H : Host) (s : String) : V.obj H (.name s) = some (H.E.const s) := rfl

theorem obj_typeObj (H : Host) (o : Nat) : V.obj H (.typeObj o) = some (H.E.typeOf o) := rfl

theorem apply_fn (H : Host) (call : String → List V → C V) (u : Bool) (g : String) (vs : List V) (k : V → C V) :
    apply H call u (.fn g) vs k = call g vs >>= k := rfl
theorem apply_api (H : Host) (call : String → List V → C V) (u : Bool) (a : Api) (vs : List V) (k : V → C V) :
    apply H call u (.api a) vs k = callApi H u a vs k := rfl
theorem apply_slot (H : Host) (call : String → List V → C V) (u : Bool) (o : Nat) (f : Fld) (vs : List V) (k : V → C V) :
    apply H call u (.slot o f) vs k = callSlot H call o f vs k := rfl
theorem apply_baseClear (H : Host) (call : String → List V → C V) (u : Bool) (t : String) (vs : List V) (k : V → C V) :
    apply H call u (.baseClear t) vs k = test H .baseClear (objs H vs) k := rfl

theorem obj_cases {H : Host} {v : V} {n : Nat} (h : v.obj H = some n) : 
    v = .ptr (some n) ∨ (∃ s, v = .name s ∧ n = H.E.const s) ∨ ∃ o, v = .typeObj o ∧ n = H.E.typeOf o := by
  cases v <;> simp_all [V.obj]

theorem toList_OO : "OO".toList = ['O', 'O'] := rfl
theorem toList_OOO : "OOO".toList = ['O', 'O', 'O'] := rfl
theorem toList_sO : "sO".toList = ['s', 'O'] := rfl

theorem user_no (f : String) : forUser.contains f = decide (f = "proxy_getattro" ∨ f = "proxy_bool" ∨ f = "proxy_contains") := by
  simp [forUser]

/-- Static variables and constants. -/
theorem glob_none (H : Host) : glob H "Py_None" = .ptr (some H.E.none) := rfl

theorem glob_true (H : Host) : glob H "Py_True" = .ptr (some H.E.true_) := rfl

theorem glob_false (H : Host) : glob H "Py_False" = .ptr (some H.E.false_) := rfl

theorem glob_ni (H : Host) : glob H "Py_NotImplemented" = .ptr (some H.E.notImplemented) := rfl

theorem glob_noProxy (H : Host) : glob H "NoProxy" = .ptr (some H.E.noProxy) := rfl

theorem glob_default (H : Host) : glob H "_defaultChecker" = .ptr (some H.E.defaultChecker) := rfl

theorem glob_checkers (H : Host) : glob H "_checkers" = .ptr (some H.E.checkers) := rfl

theorem glob_available (H : Host) : glob H "_available_by_default" = .ptr (some H.E.available) := rfl

theorem glob_value (H : Host) : glob H "PyExc_ValueError" = .name "ValueError" := rfl

theorem glob_type (H : Host) : glob H "PyExc_TypeError" = .name "TypeError" := rfl

theorem glob_attribute (H : Host) : glob H "PyExc_AttributeError" = .name "AttributeError" := rfl

theorem glob_exception (H : Host) : glob H "PyExc_Exception" = .name "Exception" := rfl

theorem glob_proxyType (H : Host) : glob H "SecurityProxyType" = .static "SecurityProxyType" := rfl

macro "crun" "[" ts:Lean.Parser.Tactic.simpLemma,* "]" : tactic =>
  `(tactic| simp only [exec, eval, evalAll, apply_fn, apply_api, apply_slot, apply_baseClear, callApi, readField, look, compared, ordered, same, truth_ofBool, truth_ptr,
    truth_int, Option.isSome_none, Option.isSome_some, ne_eq, not_true_eq_false, not_false_eq_true, toList_OO, toList_OOO, toList_sO, user_no,
    Bool.not_eq_true', or_self, or_false, false_or, true_or, or_true, decide_eq_false_iff_not, decide_true, decide_false, Option.map, Bool.not_true, Bool.not_false, Bool.false_eq_true, reduceCtorEq,
    decide_eq_true_eq,
    String.reduceEq, if_true, if_false, reduceIte, List.zip, List.zipWith, List.reverse, List.reverseAux, List.length,
    C.bind_assoc, C.pure_bind, newRef, number, test, user, withObjs, objs, upto, built, obj_ptr, obj_name, obj_typeObj, tagged, glob_none, glob_true, glob_false, glob_ni, glob_noProxy,
    glob_default, glob_checkers, glob_available, glob_value, glob_type, glob_attribute, glob_exception, glob_proxyType, $ts,*])


theorem C.fault_bind {x : C α} {k : α → C β} {m m' : Mem} {f : Fault} (h : x m = .fault f m') : (x >>= k) m = .fault f m' := by
  show (match x m with | .ok a m => k a m | .fault f m => .fault f m | .diverge => .diverge) = _
  rw [h]

theorem C.bind_congr_at {x : C α} {k k' : α → C β} {m : Mem} (h : ∀ a m', x m = .ok a m' → k a m' = k' a m') :
    (x >>= k) m = (x >>= k') m := by
  show (match x m with | .ok a m => k a m | .fault f m => .fault f m | .diverge => .diverge)
    = (match x m with | .ok a m => k' a m | .fault f m => .fault f m | .diverge => .diverge)
  cases hx : x m with
  | ok a m' => exact h a m' hx
  | fault => rfl
  | diverge => rfl

theorem incref_ok {E : Env} {d : Nat} {m m' : Mem} {a : Unit} (h : incref E d m = .ok a m') :
    m' = { m with own := fun k => if k = d then m.own d + 1 else m.own k } := by
  by_cases ha : alive E m d = true
  · have hu : use E d m = .ok () m := by simp only [use, ha, if_true]
    replace h := (C.ok_bind hu).symm.trans h
    cases h
    rfl
  · have hu : use E d m = .fault (.dangling d) m := by simp [use, ha]
    have : incref E d m = .fault (.dangling d) m := C.fault_bind hu
    rw [this] at h
    cases h

/-- `PyDict_New` leaves the members of checkers alone. -/
theorem dictNew_ok {E : Env} {m m' : Mem} {p : Ptr} (h : callObj E .api .dictNew [] m = .ok p m') :
    m'.getperms = m.getperms ∧ m'.setperms = m.setperms := by
  simp only [callObj, useAll, C.pure_bind] at h
  replace h := (C.ok_bind (x := consult E .api .dictNew []) (m := m) rfl).symm.trans h
  by_cases hr : (E.reply m.log.length).null = true
  · simp only [hr, if_true] at h
    cases h
    exact ⟨rfl, rfl⟩
  · simp only [hr, Bool.false_eq_true, if_false] at h
    cases h
    exact ⟨rfl, rfl⟩

/-! Reading a member again after `Py_INCREF`; storing NULL where NULL was. -/

theorem get_incref {E : Env} {o d : Nat} {m : Mem} (h : loadGetperms o m = .ok (some d) m) (k : Ptr → C α) :
    (incref E d >>= fun _ => loadGetperms o >>= k) m = (incref E d >>= fun _ => k (some d)) m := by
  refine C.bind_congr_at fun a m' h' => C.ok_bind ?_
  rw [incref_ok h']
  simp only [loadGetperms, Out.ok.injEq] at h ⊢
  refine ⟨h.1, ?_⟩
  have h2 := congrArg Mem.loose h.2
  simp only at h2
  simp only [Mem.mk.injEq, and_true, true_and]
  exact h2

theorem store_null_get {E : Env} {o : Nat} {m : Mem} (h : loadGetperms o m = .ok none m) (k : Ptr → C α) :
    (callObj E .api .dictNew [] >>= fun p => storeGetperms o p >>= fun _ => loadGetperms o >>= k) m
      = (callObj E .api .dictNew [] >>= fun p => match p with
          | none => k none
          | some d => storeGetperms o (some d) >>= fun _ => loadGetperms o >>= k) m := by
  refine C.bind_congr_at fun a m' h' => ?_
  cases a with
  | some d => rfl
  | none =>
    have hg : m'.getperms o = none := by
      rw [(dictNew_ok h').1]
      simp only [loadGetperms, Out.ok.injEq] at h
      exact h.1
    show (storeGetperms o none >>= fun _ => loadGetperms o >>= k) m' = k none m'
    refine (C.ok_bind (m' := m') (a := ()) ?_).trans (C.ok_bind ?_)
    · show Out.ok _ _ = _
      simp only [hg, Option.toList, List.nil_append, Out.ok.injEq, true_and]
      have : (fun k => if k = o then none else m'.getperms k) = m'.getperms := by
        funext x
        by_cases hx : x = o
        · simp [hx, hg]
        · simp [hx]
      rw [this]
    · simp only [loadGetperms, hg, reduceCtorEq, decide_false, Bool.false_or]

theorem set_incref {E : Env} {o d : Nat} {m : Mem} (h : loadSetperms o m = .ok (some d) m) (k : Ptr → C α) :
    (incref E d >>= fun _ => loadSetperms o >>= k) m = (incref E d >>= fun _ => k (some d)) m := by
  refine C.bind_congr_at fun a m' h' => C.ok_bind ?_
  rw [incref_ok h']
  simp only [loadSetperms, Out.ok.injEq] at h ⊢
  refine ⟨h.1, ?_⟩
  have h2 := congrArg Mem.loose h.2
  simp only at h2
  simp only [Mem.mk.injEq, and_true, true_and]
  exact h2

theorem store_null_set {E : Env} {o : Nat} {m : Mem} (h : loadSetperms o m = .ok none m) (k : Ptr → C α) :
    (callObj E .api .dictNew [] >>= fun p => storeSetperms o p >>= fun _ => loadSetperms o >>= k) m
      = (callObj E .api .dictNew [] >>= fun p => match p with
          | none => k none
          | some d => storeSetperms o (some d) >>= fun _ => loadSetperms o >>= k) m := by
  refine C.bind_congr_at fun a m' h' => ?_
  cases a with
  | some d => rfl
  | none =>
    have hg : m'.setperms o = none := by
      rw [(dictNew_ok h').2]
      simp only [loadSetperms, Out.ok.injEq] at h
      exact h.1
    show (storeSetperms o none >>= fun _ => loadSetperms o >>= k) m' = k none m'
    refine (C.ok_bind (m' := m') (a := ()) ?_).trans (C.ok_bind ?_)
    · show Out.ok _ _ = _
      simp only [hg, Option.toList, List.nil_append, Out.ok.injEq, true_and]
      have : (fun k => if k = o then none else m'.setperms k) = m'.setperms := by
        funext x
        by_cases hx : x = o
        · simp [hx, hg]
        · simp [hx]
      rw [this]
    · simp only [loadSetperms, hg, reduceCtorEq, decide_false, Bool.false_or]

/-- Reading a member after storing it. -/
theorem store_load_get {o d : Nat} {k k' : Ptr → C α}
    (h : ∀ m, loadGetperms o m = .ok (some d) m → k (some d) m = k' (some d) m) :
    (storeGetperms o (some d) >>= fun _ => loadGetperms o >>= k) = storeGetperms o (some d) >>= fun _ => loadGetperms o >>= k' := by
  funext m
  refine C.bind_congr_at fun a m' h' => ?_
  have hd : m'.getperms o = some d := by
    by_cases ho : m.own d = 0
    · have hg : givePtr (some d) m = .fault (.release d) m := by simp only [givePtr, give, ho, if_true]
      have : storeGetperms o (some d) m = .fault (.release d) m := C.fault_bind hg
      rw [this] at h'
      cases h'
    · have hg : givePtr (some d) m = .ok () { m with own := fun k => if k = d then m.own d - 1 else m.own k } := by
        simp only [givePtr, give, ho, if_false]
      replace h' := (C.ok_bind hg).symm.trans h'
      cases h'
      simp
  refine C.bind_congr_at fun p m'' h'' => ?_
  simp only [loadGetperms, hd, Out.ok.injEq] at h''
  obtain ⟨rfl, rfl⟩ := h''
  refine h _ ?_
  simp only [loadGetperms, hd, Out.ok.injEq, Mem.mk.injEq, and_true, true_and]
  funext x
  by_cases hx : some d = some x <;> simp [hx]

/-- Reading a member after storing it. -/
theorem store_load_set {o d : Nat} {k k' : Ptr → C α}
    (h : ∀ m, loadSetperms o m = .ok (some d) m → k (some d) m = k' (some d) m) :
    (storeSetperms o (some d) >>= fun _ => loadSetperms o >>= k) = storeSetperms o (some d) >>= fun _ => loadSetperms o >>= k' := by
  funext m
  refine C.bind_congr_at fun a m' h' => ?_
  have hd : m'.setperms o = some d := by
    by_cases ho : m.own d = 0
    · have hg : givePtr (some d) m = .fault (.release d) m := by simp only [givePtr, give, ho, if_true]
      have : storeSetperms o (some d) m = .fault (.release d) m := C.fault_bind hg
      rw [this] at h'
      cases h'
    · have hg : givePtr (some d) m = .ok () { m with own := fun k => if k = d then m.own d - 1 else m.own k } := by
        simp only [givePtr, give, ho, if_false]
      replace h' := (C.ok_bind hg).symm.trans h'
      cases h'
      simp
  refine C.bind_congr_at fun p m'' h'' => ?_
  simp only [loadSetperms, hd, Out.ok.injEq] at h''
  obtain ⟨rfl, rfl⟩ := h''
  refine h _ ?_
  simp only [loadSetperms, hd, Out.ok.injEq, Mem.mk.injEq, and_true, true_and]
  funext x
  by_cases hx : some d = some x <;> simp [hx]

/-- Beginning with the call of a function. -/
theorem RunsAs.intro {H : Host} {n : Nat} {f : String} {vs : List V} {x : C α} {r : α → V} {g : CFunc}
    (hg : Src.functions.find? (fun g => g.name == f) = some g) (hl : g.params.length = vs.length)
    (h : ∀ d, n ≤ d → exec H (run H d) (forUser.contains f) (jumping H (run H d) (forUser.contains f) g.body) g.body
      (g.params.zip vs).reverse (fun _ => pure .void) = x >>= fun a => pure (r a)) : RunsAs H (n + 1) f vs x r := by
  intro d hd
  obtain ⟨d, rfl⟩ : ∃ e, d = e + 1 := ⟨d - 1, by omega⟩
  simp only [run, hg, hl, if_true]
  exact h d (by omega)

theorem RunsAs.mono {H : Host} {n n' : Nat} {f : String} {vs : List V} {x : C α} {r : α → V} (h : RunsAs H n f vs x r)
    (hn : n ≤ n') : RunsAs H n' f vs x r := fun d hd => h d (by omega)

/-- Going on after the call of a function. -/
theorem RunsAs.call {H : Host} {n d : Nat} {f : String} {vs : List V} {x : C α} {r : α → V} (h : RunsAs H n f vs x r)
    (hd : n ≤ d) : run H d f vs = x >>= fun a => pure (r a) := h d hd

end ZS.CS
