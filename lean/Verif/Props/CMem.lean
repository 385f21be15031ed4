import Verif.Lemmas.CGood
import Verif.Lemmas.CFields

/-!
# C57-C59 The extension modules and the rules of the C API
-/

namespace ZS.CM
variable {E : Env}

theorem ObjEntry.good (hK : Kept E) {x : C Ptr} (h : ObjEntry E x) (I : Nat → Nat) :
    Good E I [] false x (addp I) (fun _ => []) (ObjErr false) := by
  cases h with
  | permissionId _ hn => exact permissionId_good hK (by us)
  | setattrPermissionId _ hn => exact setattrPermissionId_good hK (by us)
  | check _ ho hn => exact checkerCheck_good hK (by us) (by us)
  | checkSetattr _ ho hn => exact checkerCheckSetattr_good hK (by us) (by us)
  | proxy hv => exact checkerProxy_good hK (by us)
  | getGetPermissions => exact getGetPermissions_good
  | getSetPermissions => exact getSetPermissions_good
  | selectChecker ho => exact selectChecker_good hK (by us)
  | new ht ho hc => exact proxyNew_good ht ho hc
  | richcompare op hs ho => exact proxyRichcompare_good hK hs ho
  | iter hs => exact checked_good hK hs (by us) fun _ => api_op (by us)
  | iternext hs => exact checked_good hK hs (by us) fun _ => next_good (by us)
  | getattro hs hn => exact checked_good hK hs (by us) fun _ => api_op (by us)
  | str hs => exact proxyText_good hK hs
  | repr hs => exact proxyText_good hK hs
  | call hs ha hk => exact checked_good hK hs (by us) fun _ => api_op (us_cons (by us) (us_cons (by us) (us_opt hk)))
  | unary op hs => exact checked_good hK hs (by us) fun _ => api_op (by us)
  | number op hs => exact checked_good hK hs (by us) fun _ => callNumber_good (by us)
  | binary op rop hs ho => exact check2_good hK hs ho (by us) (by us) fun _ _ _ _ _ => api_op (by us)
  | inplace op hs ho => exact check2i_good hK hs ho (by us) fun _ _ _ _ _ => api_op (by us)
  | ipow hs ho => exact check2i_good hK hs ho (by us) fun _ _ _ _ _ => api_op (by us)
  | pow hs ho hm => exact proxyPow_good hK hs ho hm
  | lengthHint hs => exact proxyLengthHint_good hK hs
  | getitem hs hk => exact proxyGetitem_good hK hs fun _ => by us
  | igetitem hs => exact proxyIgetitem_good hK hs
  | getChecker ha => exact getChecker_good hK ha
  | getObject ha => exact getObject_good hK ha

theorem IntEntry.good (hK : Kept E) {x : C Int} (h : IntEntry E x) (I : Nat → Nat) :
    Good E I [] false x (fun _ => I) (fun _ => []) (IntErr false) := by
  cases h with
  | checkInt _ ho hn => exact checkInt_good hK (by us) (by us)
  | init _ hg hs => exact checkerInit_good (by us) fun o h => .held (hs o h)
  | clear => exact checkerClear_good
  | proxyClear hs => exact proxyClear_good hs
  | setattro hs hn hv => exact proxySetattro_good hK hs hn hv
  | bool hs => exact .callInt (by decide) (by decide) (by us)
  | length hs => exact checkedInt_good hK hs (by us) fun _ => by us
  | contains hs hv => exact checkedInt_good hK hs (by us) fun _ => by us
  | setitem hs hk hv => exact proxySetitem_good hK hs (fun _ => by us) hv
  | isetitem hs hv => exact proxyIsetitem_good hK hs hv

theorem good_start {I : Nat → Nat} (h : ∀ o, I o = 0) {m : Mem} (hl : m.log = []) (he : m.err = false) : Sat E I [] false m :=
  ⟨fun o => by simp [h, hl, leaks], fun _ h => (by cases h), .inr (.inr he)⟩

theorem Good.balanced {x : C α} {J : α → Nat → Nat} {e' : α → Bool} {result : α → Ptr}
    (h : Good E (fun _ => 0) [] false x J (fun _ => []) e') (hJ : ∀ a o, J a o = if result a = some o then 1 else 0) :
    Balanced E x result := by
  intro m a m' hl he hx o
  have h1 := h m (good_start (fun _ => rfl) hl he)
  rw [hx] at h1
  have h2 := h1.own o
  rw [hJ, hl] at h2
  simp only [leaks, List.countP_nil] at h2 ⊢
  omega

theorem Good.memorySafe {x : C α} {J : α → Nat → Nat} {e' : α → Bool}
    (h : Good E (fun _ => 0) [] false x J (fun _ => []) e') : MemorySafe x := by
  intro m f m' hl he hx
  have h1 := h m (good_start (fun _ => rfl) hl he)
  rw [hx] at h1
  exact h1

theorem Good.truthful {x : C α} {J : α → Nat → Nat} {e' : α → Bool}
    (h : Good E (fun _ => 0) [] false x J (fun _ => []) e') : Truthful x e' := by
  intro m a m' hl he hx hm
  have h1 := h m (good_start (fun _ => rfl) hl he)
  rw [hx] at h1
  rcases h1.err with h | ⟨h, h'⟩ | h
  · exact absurd h hm
  · exact ⟨fun hf => (by rw [hf] at h'; cases h'), fun _ => .inr h⟩
  · exact ⟨fun hf => by rw [h, hf], fun hf => .inl (by rw [h, hf])⟩

theorem addp_zero (p : Ptr) (o : Nat) : addp (fun _ => 0) p o = if p = some o then 1 else 0 := by
  cases p with
  | none => rfl
  | some r =>
    simp only [addp, add, Option.some.injEq]
    by_cases h : o = r
    · simp [h]
    · simp [h, Ne.symm h]

theorem bind_ok {α β : Type} {x : C α} {k : α → C β} {m m' : Mem} {b : β} (h : (x >>= k : C β) m = .ok b m') :
    ∃ a m1, x m = .ok a m1 ∧ k a m1 = .ok b m' := by
  have h' : (match x m with | .ok a m => k a m | .fault f m => .fault f m | .diverge => .diverge : Out β) = .ok b m' := h
  cases hxm : x m with
  | ok a m1 => rw [hxm] at h'; exact ⟨a, m1, rfl, h'⟩
  | fault f m' => rw [hxm] at h'; cases h'
  | diverge => rw [hxm] at h'; cases h'

/-- The fields of checkers and the lost references are the same. -/
def SameFields (m m' : Mem) : Prop := m'.lost = m.lost ∧ m'.getperms = m.getperms ∧ m'.setperms = m.setperms

theorem useAll_ok {l : List Nat} {m m' : Mem} {u : Unit} (h : useAll E l m = .ok u m') : m' = m := by
  induction l generalizing m with
  | nil => cases h; rfl
  | cons o r ih =>
    obtain ⟨_, m1, h1, h2⟩ := bind_ok h
    unfold use at h1
    split at h1
    · cases h1; exact ih h2
    · cases h1

theorem parse_ok {l : List Nat} {m m' : Mem} {b : Bool} (h : parse E l m = .ok b m') : SameFields m m' := by
  obtain ⟨_, m1, h1, h2⟩ := bind_ok h
  cases useAll_ok h1
  obtain ⟨r, m2, h3, h4⟩ := bind_ok h2
  cases h3
  rw [ite_run] at h4
  split at h4
  · cases h4; exact ⟨rfl, rfl, rfl⟩
  · cases h4; exact ⟨rfl, rfl, rfl⟩

theorem incref_ok {o : Nat} {m m' : Mem} {u : Unit} (h : incref E o m = .ok u m') : SameFields m m' := by
  obtain ⟨_, m1, h1, h2⟩ := bind_ok h
  unfold use at h1
  split at h1
  · cases h1; cases h2; exact ⟨rfl, rfl, rfl⟩
  · cases h1

theorem xincref_ok {p : Ptr} {m m' : Mem} {u : Unit} (h : xincref E p m = .ok u m') : SameFields m m' := by
  cases p with
  | none => cases h; exact ⟨rfl, rfl, rfl⟩
  | some o => exact incref_ok h

theorem givePtr_ok {p : Ptr} {m m' : Mem} {u : Unit} (h : givePtr p m = .ok u m') : SameFields m m' := by
  cases p with
  | none => cases h; exact ⟨rfl, rfl, rfl⟩
  | some o =>
    have h' : give o m = .ok u m' := h
    unfold give at h'
    split at h'
    · cases h'
    · cases h'; exact ⟨rfl, rfl, rfl⟩

theorem callInt_ok {k : Call} {f : Fn} {l : List Nat} {m m' : Mem} {i : Int} (h : callInt E k f l m = .ok i m') :
    i = (E.reply m.log.length).num ∧ m'.log = (k, E.reply m.log.length) :: m.log := by
  obtain ⟨_, m4, hu, hi⟩ := bind_ok h
  cases useAll_ok hu
  obtain ⟨r, m5, hc, hi⟩ := bind_ok hi
  cases hc
  rw [ite_run] at hi
  by_cases hn : (E.reply m.log.length).num < 0
  · rw [if_pos hn] at hi; cases hi; exact ⟨rfl, rfl⟩
  · rw [if_neg hn] at hi; cases hi; exact ⟨rfl, rfl⟩

theorem callObj_ok {k : Call} {f : Fn} {l : List Nat} {m m' : Mem} {p : Ptr} (h : callObj E k f l m = .ok p m') :
    m'.log = (k, E.reply m.log.length) :: m.log := by
  obtain ⟨_, m4, hu, hi⟩ := bind_ok h
  cases useAll_ok hu
  obtain ⟨r, m5, hc, hi⟩ := bind_ok hi
  cases hc
  rw [ite_run] at hi
  by_cases hn : (E.reply m.log.length).null = true
  · rw [if_pos hn] at hi; cases hi; rfl
  · rw [if_neg hn] at hi; cases hi; rfl

/-- How many bytes objects are made to look at names. -/
def encodings (log : List (Call × Reply)) : Nat := log.countP fun e => decide (e.1 = .asUtf8)

/-- The code does not look at names. -/
def NoEncoding (x : C α) : Prop := ∀ m a m', x m = .ok a m' → encodings m'.log = encodings m.log

theorem NoEncoding.bind {α β : Type} {x : C α} {k : α → C β} (hx : NoEncoding x) (hk : ∀ a, NoEncoding (k a)) : NoEncoding (x >>= k) := by
  intro m b m' h
  obtain ⟨a, m1, h1, h2⟩ := bind_ok h
  rw [hk a _ _ _ h2, hx _ _ _ h1]

theorem NoEncoding.pure (a : α) : NoEncoding (Pure.pure a : C α) := fun _ _ _ h => by cases h; rfl

theorem NoEncoding.useAll (l : List Nat) : NoEncoding (useAll E l) := fun _ _ _ h => by rw [useAll_ok h]

theorem NoEncoding.consult {k : Call} {f : Fn} {l : List Nat} (hk : k ≠ .asUtf8) : NoEncoding (consult E k f l) := fun _ _ _ h => by
  cases h; simp [encodings, hk]

theorem NoEncoding.setErr (b : Bool) (e : Raised) : NoEncoding (setErr b e) := fun _ _ _ h => by cases h; rfl

theorem NoEncoding.api (f : Fn) (l : List Nat) : NoEncoding (callObj E .api f l) := by
  refine .bind (.useAll l) fun _ => .bind (.consult (by decide)) fun r => ?_
  split
  · exact .bind (.setErr _ _) fun _ => .pure _
  · exact .bind (fun _ _ _ h => by cases h; rfl) fun _ => .pure _

theorem NoEncoding.decref (o : Nat) : NoEncoding (decref E o) := by
  refine .bind (x := give o) (fun m a m' h => ?_) fun _ => .bind (.consult (by decide)) fun _ => .pure _
  unfold give at h
  split at h
  · cases h
  · cases h; rfl

theorem NoEncoding.raiseForbidden (a b : Nat) : NoEncoding (raiseForbidden E a b) := by
  refine .bind (.api _ _) fun p => ?_
  cases p with
  | none => exact .pure _
  | some p => exact .bind (.bind (.useAll _) fun _ => .setErr _ _) fun _ => .decref _

theorem NoEncoding.callTest (f : Fn) (l : List Nat) : NoEncoding (callTest E f l) :=
  .bind (.useAll _) fun _ => .bind (.consult (by decide)) fun _ => .pure _

end ZS.CM

namespace ZS.Props
open ZS.CM
variable {E : Env}

/-- C57: the functions returning an object return a new reference and otherwise take as many references
as they release, except for the bytes objects made to look at names and a `__Security_checker__`
that is None. -/
theorem C57_objects (hK : Kept E) {x : C Ptr} (h : ObjEntry E x) : Balanced E x id :=
  (h.good hK _).balanced addp_zero

/-- C57 for the functions returning an int. -/
theorem C57_ints (hK : Kept E) {x : C Int} (h : IntEntry E x) : Balanced E x fun _ => none :=
  (h.good hK _).balanced fun _ _ => by simp

/-- C58: whatever other code does, no function accesses memory it must not access, unless a name could
not be encoded (NULL) or other code removed the object in question from a dictionary (dangling). -/
theorem C58_objects (hK : Kept E) {x : C Ptr} (h : ObjEntry E x) : MemorySafe x := (h.good hK _).memorySafe

theorem C58_ints (hK : Kept E) {x : C Int} (h : IntEntry E x) : MemorySafe x := (h.good hK _).memorySafe

/-- C59: NULL is returned with the error indicator set, or at the end of an iterator; any other
result without; unless `isinstance(object, Exception)` raised an exception. -/
theorem C59_objects (hK : Kept E) {x : C Ptr} (h : ObjEntry E x) : Truthful x Option.isNone := by
  have he : ObjErr false = Option.isNone := funext fun p => by simp [ObjErr]
  exact he ▸ (h.good hK _).truthful

theorem C59_ints (hK : Kept E) {x : C Int} (h : IntEntry E x) : Truthful x negative := by
  have he : IntErr false = negative := funext fun p => by simp [IntErr, negative]
  exact he ▸ (h.good hK _).truthful

/-- C57-C59 for `proxy_hash`, which returns whatever hash the wrapped object has: only -1 means failure. -/
theorem C59_hash (hK : Kept E) {self : Nat} (hs : E.held self = true) :
    Balanced E (proxyHash E self) (fun _ => none) ∧ MemorySafe (proxyHash E self) ∧
    Truthful (proxyHash E self) (fun i => decide (i = -1)) ∧ KeepsFields (proxyHash E self) := by
  have h : ∀ I, Good E I [] false (proxyHash E self) (fun _ => I) (fun _ => []) (fun i => decide (i = -1) || false) :=
    fun I => .callHash (by us)
  refine ⟨(h _).balanced fun _ _ => by simp, (h _).memorySafe, ?_, .of (.proxyHash _)⟩
  have he : (fun i : Int => decide (i = -1) || false) = fun i => decide (i = -1) := funext fun p => by simp
  exact he ▸ (h _).truthful

/-- C57: the references in the fields of checkers are never lost either. -/
theorem C57_fields_objects {x : C Ptr} (h : ObjEntry E x) : KeepsFields x := by
  cases h with
  | permissionId => exact .of (.permissionId _ _)
  | setattrPermissionId => exact .of (.setattrPermissionId _ _)
  | check => exact .of (.checkerCheck _ _ _)
  | checkSetattr => exact .of (.checkerCheckSetattr _ _ _)
  | proxy => exact .of (.checkerProxy _ _)
  | getGetPermissions => exact .getGetPermissions _
  | getSetPermissions => exact .getSetPermissions _
  | selectChecker => exact .of (.selectChecker _ _)
  | new => exact .of (.proxyNew _ _ _)
  | richcompare => exact .of (.proxyRichcompare _ _ _ _)
  | iter => exact .of (.check1 _ _ _ fun _ => .api _ _)
  | iternext => exact .of (.proxyIternext _ _)
  | getattro => exact .of (.proxyGetattro _ _ _)
  | str => exact .of (.proxyText _ _)
  | repr => exact .of (.proxyText _ _)
  | call => exact .of (.check1 _ _ _ fun _ => .api _ _)
  | unary => exact .of (.check1 _ _ _ fun _ => .api _ _)
  | number => exact .of (.check1 _ _ _ fun _ => .callNumber _ _)
  | binary => exact .of (.check2 _ _ _ _ _ fun _ _ => .api _ _)
  | inplace => exact .of (.check2i _ _ _ _ fun _ _ => .api _ _)
  | ipow => exact .of (.check2i _ _ _ _ fun _ _ => .api _ _)
  | pow => exact .of (.proxyPow _ _ _ _)
  | lengthHint => exact .of (.proxyLengthHint _)
  | getitem => exact .of (.proxyGetitem _ _ _)
  | igetitem => exact .of (.proxyIgetitem _ _ _)
  | getChecker => exact .of (.getChecker _)
  | getObject => exact .of (.getObject _)

/-- The functions returning an int do not lose the references in fields either, except for
`Checker_init`; `Checker_clear` empties the fields on purpose. -/
theorem C57_fields_ints {x : C Int} (h : IntEntry E x) (hi : ∀ self g s, x ≠ checkerInit E self g s)
    (hc : ∀ self, x ≠ checkerClear E self) : KeepsFields x := by
  cases h with
  | checkInt => exact .of (.checkInt _ _ _)
  | init => exact absurd rfl (hi _ _ _)
  | clear => exact absurd rfl (hc _)
  | proxyClear => exact .of (.proxyClear _ _)
  | setattro => exact .of (.proxySetattro _ _ _)
  | bool => exact .of (.proxyBool _)
  | length => exact .of (.proxyLength _)
  | contains => exact .of (.proxyContains _ _)
  | setitem => exact .of (.proxySetitem _ _ _)
  | isetitem => exact .of (.proxyIsetitem _ _ _)

/-- `Checker_init` loses exactly what was in the fields before: nothing for a new checker, both
dictionaries when `__init__` is called again. -/
theorem C57_init {self getperms : Nat} {setperms : Ptr} {m m' : Mem} {i : Int} (h : checkerInit E self getperms setperms m = .ok i m')
    (hi : i = 0) :
    m'.getperms self = some getperms ∧ m'.setperms self = setperms ∧
    m'.lost = (m.setperms self).toList ++ ((m.getperms self).toList ++ m.lost) ∧
    ∀ k, k ≠ self → m'.getperms k = m.getperms k ∧ m'.setperms k = m.setperms k := by
  obtain ⟨ok, m1, h1, h2⟩ := bind_ok h
  obtain ⟨l1, g1, s1⟩ := parse_ok h1
  rw [ite_run] at h2
  split at h2
  · obtain ⟨_, m2, h3, h4⟩ := bind_ok h2
    obtain ⟨l2, g2, s2⟩ := incref_ok h3
    obtain ⟨_, m3, h5, h6⟩ := bind_ok h4
    obtain ⟨_, m4, h7, h8⟩ := bind_ok h5
    obtain ⟨l3, g3, s3⟩ := givePtr_ok h7
    cases h8
    obtain ⟨_, m5, h9, h10⟩ := bind_ok h6
    obtain ⟨l4, g4, s4⟩ := xincref_ok h9
    obtain ⟨_, m6, h11, h12⟩ := bind_ok h10
    obtain ⟨_, m7, h13, h14⟩ := bind_ok h11
    obtain ⟨l5, g5, s5⟩ := givePtr_ok h13
    cases h14
    cases h12
    simp only at l4 g4 s4
    refine ⟨?_, ?_, ?_, fun k hk => ⟨?_, ?_⟩⟩
    · simp [g5, g4]
    · simp
    · simp [l5, l4, l3, l2, l1, s5, s4, s3, s2, s1, g3, g2, g1]
    · simp [hk, g5, g4, g3, g2, g1]
    · simp [hk, s5, s4, s3, s2, s1]
  · cases h2
    cases hi

/-- `Checker_clear` leaves both fields empty, and other checkers alone. -/
theorem C57_clear {self : Nat} {m m' : Mem} {i : Int} (h : checkerClear E self m = .ok i m') :
    m'.getperms self = none ∧ m'.setperms self = none ∧ m'.lost = m.lost ∧
    ∀ k, k ≠ self → m'.getperms k = m.getperms k ∧ m'.setperms k = m.setperms k := by
  cases hg : m.getperms self <;> cases hs : m.setperms self <;>
    simp [checkerClear, takeGetperms, takeSetperms, xdecref, decref, consult, Bind.bind, Pure.pure, hg, hs] at h <;>
    obtain ⟨_, rfl⟩ := h <;> simp_all

/-- A check of an undeclared name leaves behind one bytes object, two if the name begins with an
underscore, and three if it begins with two and is not one of those available by default. -/
theorem C57_leak {self object name d : Nat} {text : List Char} (hn : E.held name = true) (hs : E.isStr name = true)
    {m m' : Mem} {i : Int} (hl : m.log = []) (hd : m.getperms self = some d) (h0 : (E.reply 0).null = true)
    (h1 : (E.reply 1).null = false ∧ E.bytes (E.reply 1).obj = text)
    (h2 : (E.reply 2).null = false ∧ E.bytes (E.reply 2).obj = text)
    (h : checkInt E self object (some name) m = .ok i m') :
    encodings m'.log =
      if text[0]? ≠ some '_' then 1 else if text[1]? ≠ some '_' then 2 else if (E.reply 3).num = 0 then 3 else 2 := by
  obtain ⟨t1, b1⟩ := h1
  obtain ⟨t2, b2⟩ := h2
  -- the lookup finds nothing
  have hr : ∃ m1, m1.log = [(.dictGet, E.reply 0)] ∧ checkUndeclared E object name m1 = .ok i m' := by
    refine ⟨{ m with log := [(.dictGet, E.reply 0)], asked := ⟨.dictGet, [d, name], m.raised, E.reply 0⟩ :: m.asked, loose := fun o => (decide (m.getperms self = some o) || m.loose o) && !((E.reply 0).drops.contains o) }, rfl, ?_⟩
    rw [← h]
    simp [checkInt, deref, checkNamed, loadGetperms, lookup, dictGet, useAll, use, consult, Bind.bind, Pure.pure, alive, hd, hl, h0, hn]
  obtain ⟨m1, hl1, hu⟩ := hr
  obtain ⟨op, m2, ho, hk⟩ := bind_ok hu
  have hf : ∀ m2, (do raiseForbidden E object name; pure (-1) : C Int) m2 = .ok i m' → encodings m'.log = encodings m2.log :=
    fun m2 h => NoEncoding.bind (.raiseForbidden _ _) (fun _ => .pure _) m2 _ _ h
  by_cases c0 : text[0]? = some '_'
  · simp [isOperator, use, alive, hn, hs, makeString, callObj, useAll, consult, Bind.bind, Pure.pure, hl1, t1, b1, gain, readText, c0, t2, b2] at ho
    obtain ⟨rfl, rfl⟩ := ho
    by_cases c1 : text[1]? = some '_'
    · simp only [c1, decide_true, if_true] at hk
      obtain ⟨ic, m3, hi, hk⟩ := bind_ok hk
      have hm3 : ic = (E.reply 3).num ∧ m3.log = [(.int, E.reply 3), (.asUtf8, E.reply 2), (.asUtf8, E.reply 1), (.dictGet, E.reply 0)] := by
        exact callInt_ok hi
      obtain ⟨rfl, hl3⟩ := hm3
      simp only [c0, c1, ne_eq, not_true, if_false]
      by_cases hz : (E.reply 3).num = 0
      · simp only [hz, if_true]
        rw [ite_run, if_neg (by omega), ite_run, if_neg (by omega)] at hk
        obtain ⟨s, m4, hms, hk⟩ := bind_ok hk
        have hm4 : m4.log = [(.asUtf8, E.reply 4), (.int, E.reply 3), (.asUtf8, E.reply 2), (.asUtf8, E.reply 1), (.dictGet, E.reply 0)] := by
          have := callObj_ok hms
          rwa [hl3] at this
        obtain ⟨t, m5, hrt, hk⟩ := bind_ok hk
        have hm5 : m5.log = m4.log := by
          cases s with
          | none => cases hrt
          | some s =>
            obtain ⟨_, m6, hu, hi⟩ := bind_ok hrt
            unfold use at hu
            split at hu
            · cases hu; cases hi; rfl
            · cases hu
        have : encodings m'.log = encodings m5.log := by
          rw [ite_run] at hk
          split at hk
          · obtain ⟨b, m6, hc, hk⟩ := bind_ok hk
            rw [← NoEncoding.callTest _ _ _ _ _ hc]
            rw [ite_run] at hk
            split at hk
            · exact hf _ hk
            · cases hk; rfl
          · exact hf _ hk
        rw [this, hm5, hm4]
        rfl
      · rw [if_neg hz]
        have : m'.log = m3.log := by
          rw [ite_run] at hk
          split at hk
          · cases hk; rfl
          · cases hk; rfl
        rw [this, hl3]
        rfl
    · simp only [c1, decide_false] at hk
      have := hf _ hk
      rw [this]
      simp [encodings, c0, c1]
  · simp [isOperator, use, alive, hn, hs, makeString, callObj, useAll, consult, Bind.bind, Pure.pure, hl1, t1, b1, gain, readText, c0] at ho
    obtain ⟨rfl, rfl⟩ := ho
    have := hf _ hk
    rw [this]
    simp [encodings, c0]

/-- A `__Security_checker__` that is None is not released. -/
theorem C57_none (hK : Kept E) {fuel value : Nat} (hv : E.held value = true) (hx : E.exactProxy value = false)
    {m m' : Mem} {p : Ptr} (hl : m.log = []) (h0 : (E.reply 0).null = false) (h1 : (E.reply 0).obj = E.none)
    (h : checkerProxy E fuel value m = .ok p m') : p = none ∧ leaks E m'.log E.none = 1 := by
  simp [checkerProxy, use, alive, hv, hx, callObj, useAll, hK.const, consult, Bind.bind, Pure.pure, hl, h0, h1, gain] at h
  by_cases hr : (E.reply 1).null = true
  · simp [hr, setErr] at h
    obtain ⟨rfl, rfl⟩ := h
    simp [leaks, leakedBy, h0, h1]
  · simp [hr, setErr, setObject, useAll, use, alive, hK.const, Bind.bind, Pure.pure, decref, consult] at h
    obtain ⟨rfl, rfl⟩ := h
    simp [leaks, leakedBy, h0, h1]

/-- A check of an undeclared name that cannot be encoded in UTF-8, such as `getattr(proxy, '\ud800')`,
reads through an invalid pointer: C58 needs its first exception. -/
theorem C58_unencodable {self object name d : Nat} (hn : E.held name = true) (hs : E.isStr name = true)
    {m : Mem} (hl : m.log = []) (hd : m.getperms self = some d) (h0 : (E.reply 0).null = true) (h1 : (E.reply 1).null = true) :
    ∃ m', checkInt E self object (some name) m = .fault .null m' := by
  simp [checkInt, deref, checkNamed, loadGetperms, lookup, dictGet, useAll, use, consult, Bind.bind, Pure.pure, alive, hd, hl, h0, hn, hs,
    checkUndeclared, isOperator, makeString, callObj, h1, setErr, readText, fail]

/-- A permission that nobody else keeps and that is removed from the dictionary while the interaction
is asked about it is used afterwards, if the interaction says no: C58 needs its second exception. -/
theorem C58_dangling (hK : Kept E) {self object name d p : Nat} (ho : E.held object = true) (hn : E.held name = true)
    {m : Mem} (hl : m.log = []) (hd : m.getperms self = some d) (hm : ∀ o, m.own o = 0)
    (h0 : (E.reply 0).null = false ∧ (E.reply 0).obj = p) (hp : p ≠ E.checkerPublic) (hh : E.held p = false)
    (h1 : (E.reply 1).null = false ∧ (E.reply 1).obj ≠ p ∧ (E.reply 1).drops = [])
    (h2 : (E.reply 2).null = false ∧ (E.reply 2).obj ≠ p ∧ p ∈ (E.reply 2).drops)
    (h4 : (E.reply 4).num = 0) :
    ∃ m', checkInt E self object (some name) m = .fault (.dangling p) m' := by
  by_cases hq : (E.reply 2).obj = (E.reply 1).obj
  · simp [checkInt, deref, checkNamed, loadGetperms, lookup, dictGet, useAll, use, consult, Bind.bind, Pure.pure, alive, hd, hl, hn, ho,
      h0.1, h0.2, hp, checkPermission, callObj, hK.threadLocal, hK.const, h1.1, Ne.symm h1.2.1, h1.2.2, gain, h2.1, h2.2.2, decref, callInt, h4, hm,
      raiseUnauthorized, hq, hh]
  · simp [checkInt, deref, checkNamed, loadGetperms, lookup, dictGet, useAll, use, consult, Bind.bind, Pure.pure, alive, hd, hl, hn, ho,
      h0.1, h0.2, hp, checkPermission, callObj, hK.threadLocal, hK.const, h1.1, Ne.symm h1.2.1, h1.2.2, gain, h2.1, Ne.symm h2.2.1, h2.2.2, decref, callInt, h4, hm,
      raiseUnauthorized, hq, Ne.symm hq, hh]

/-- `del checker[object]` calls `Checker_check_int` without a name. -/
theorem C58_delitem (self object : Nat) (m : Mem) : checkInt E self object none m = .fault .null m := rfl

/-- When `isinstance(object, Exception)` raises, `selectChecker` returns None and leaves the error set:
C59 needs its exception. -/
theorem C59_misread (hK : Kept E) {fuel object : Nat} (ho : E.held object = true) (hne : E.defaultChecker ≠ E.noProxy)
    {m : Mem} (hl : m.log = []) (h0 : (E.reply 0).null = true) (h1 : (E.reply 1).num < 0) :
    ∃ m', selectChecker E fuel object m = .ok (some E.none) m' ∧ m'.err = true := by
  simp [selectChecker, use, alive, ho, dictGet, useAll, hK.checkers, hK.typeOf, consult, Bind.bind, Pure.pure, hl, h0, hne,
    isUnprotectedException, callInt, hK.const, h1, setErr, returnNone, incref, hK.none, hK.defaultChecker, show (E.reply 1).num ≠ 0 by omega]

/-! ### Cases -/

namespace CSample

/-- An environment in which objects below 100 are kept and answers are as given: `0` is None, `1`
NotImplemented, `4` a proxy for `12` with the native checker `13`, and so on. -/
def sampleEnv (reply : Nat → Reply) : Env where
  reply := reply
  held := fun o => decide (o < 100)
  isProxy := fun o => decide (o = 4)
  exactProxy := fun _ => false
  isChecker := fun o => decide (o = 13)
  isStr := fun o => decide (20 ≤ o)
  bytes := fun o => if o = 200 then "__len__".toList else "title".toList
  typeOf := fun _ => 11
  wrapped := fun _ => 12
  checkerOf := fun _ => 13
  assSlot := fun _ => .native
  subSlot := fun _ => .native
  hasNumber := fun _ => true
  none := 0
  notImplemented := 1
  true_ := 2
  false_ := 3
  threadLocal := 5
  checkerPublic := 6
  noProxy := 7
  defaultChecker := 8
  checkers := 9
  available := 10
  proxyType := 14
  const := fun _ => 20

def sampleMem : Mem where
  own := fun _ => 0
  loose := fun _ => false
  err := false
  getperms := fun o => if o = 13 then some 150 else none
  setperms := fun _ => none
  lost := []
  log := []

theorem sampleEnv_kept (reply : Nat → Reply) : Kept (sampleEnv reply) := by
  constructor <;> intros <;> rfl

/-- The answers in turn, afterwards NULL. -/
def answers (l : List Reply) (n : Nat) : Reply := l.getD n { null := true, num := -1 }

def result : Out Ptr → Option (Ptr × Bool × Nat)
  | .ok a m => some (a, m.err, m.log.length)
  | _ => none

/-- `proxy.title` where the permission is public: the value `300` has no `__Security_checker__`, its
checker is `13`, and the proxy made for it is `301`. -/
def goodAnswers : List Reply :=
  [{ obj := 6 }, { obj := 300 }, { null := true }, { obj := 13 }, { obj := 301 }, {}, {}]

example : result (proxyGetattro (sampleEnv (answers goodAnswers)) 5 4 21 sampleMem) = some (some 301, false, 7) := by decide +kernel

example : Balanced (sampleEnv (answers goodAnswers)) (proxyGetattro (sampleEnv (answers goodAnswers)) 5 4 21) id :=
  C57_objects (sampleEnv_kept _) (.getattro rfl rfl)

example : MemorySafe (proxySetattro (sampleEnv (answers [{ null := true }])) 4 21 (some 22)) :=
  C58_ints (sampleEnv_kept _) (.setattro rfl rfl (by rintro o h; cases h; rfl))

/-- A hash of -2 is a result, -1 is a failure. -/
def hashed : Out Int → Option (Int × Bool)
  | .ok i m => some (i, m.err)
  | _ => none

example : hashed (proxyHash (sampleEnv (answers [{ num := -2 }])) 4 sampleMem) = some (-2, false)
    ∧ hashed (proxyHash (sampleEnv (answers [{ num := -1 }])) 4 sampleMem) = some (-1, true) := by decide +kernel

example : Truthful (proxyHash (sampleEnv (answers [])) 4) (fun i => decide (i = -1)) := (C59_hash (sampleEnv_kept _) rfl).2.2.1

/-- A name that is not declared: one bytes object (`210`) is leaked, the error is set. -/
def refused : List Reply := [{ null := true }, { obj := 210 }, { obj := 220 }, {}]

example : result (proxyGetattro (sampleEnv (answers refused)) 5 4 21 sampleMem) = some (none, true, 4) := by decide +kernel

def leaked (E : Env) (o : Nat) : Out α → Option Nat
  | .ok _ m => some (leaks E m.log o)
  | _ => none

example : leaked (sampleEnv (answers refused)) 210 (proxyGetattro (sampleEnv (answers refused)) 5 4 21 sampleMem) = some 1 := by decide +kernel

/-- An operator that is not available: the three bytes objects are all called `200` here. -/
example : leaked (sampleEnv (answers [{ null := true }, { obj := 200 }, { obj := 200 }, {}, { obj := 200 }, { obj := 220 }, {}])) 200
    (checkInt (sampleEnv (answers [{ null := true }, { obj := 200 }, { obj := 200 }, {}, { obj := 200 }, { obj := 220 }, {}])) 13 12
      (some 21) sampleMem) = some 3 := by decide +kernel

def faultOf : Out α → Option Fault
  | .fault f _ => some f
  | _ => none

/-- The permission `160` disappears from the dictionary while the interaction `170` is asked. -/
example : faultOf (proxyGetattro (sampleEnv (answers [{ obj := 160 }, { obj := 170 }, { obj := 171, drops := [160] }, {}, {}, {}])) 5 4 21
    sampleMem) = some (.dangling 160) := by decide +kernel

example : faultOf (proxyGetattro (sampleEnv (answers [{ null := true }])) 5 4 21 sampleMem) = some .null := by decide +kernel

/-- The end of an iterator: NULL without error. -/
example : result (proxyIternext (sampleEnv (answers [{ obj := 6 }, { null := true }])) 5 4 sampleMem) = some (none, false, 2) := by decide +kernel

/-- `checker.__init__` called again. -/
example : (match checkerInit (sampleEnv (answers [{}])) 13 30 (some 31) sampleMem with
    | .ok _ m => m.lost
    | _ => []) = [150] := by decide +kernel

end CSample

end ZS.Props
