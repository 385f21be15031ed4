import Verif.Lemmas.CMem

/-!
# The functions of the extension modules keep the rules of the C API
-/

namespace ZS.CM

section
variable {E : Env} {I : Nat → Nat} {B : List Ptr} {e : Bool} {o r : Nat}

theorem Usable.add (h : Usable E I B o) : Usable E (add I r) B o := by
  rcases h with h | h | h
  · exact .inl (by simp only [CM.add]; omega)
  · exact .inr (.inl h)
  · exact .inr (.inr h)

theorem Usable.addp {p : Ptr} (h : Usable E I B o) : Usable E (addp I p) B o := by
  cases p with
  | none => exact h
  | some r => exact h.add

theorem Usable.self : Usable E (CM.add I o) B o := .inl (by simp [CM.add])

theorem Usable.selfp : Usable E (CM.addp I (some o)) B o := Usable.self

theorem Usable.app {B' : List Ptr} (h : Usable E I B o) : Usable E I (B' ++ B) o := by
  rcases h with h | h | h
  · exact .inl h
  · exact .inr (.inl h)
  · exact .inr (.inr (List.mem_append_right _ h))

theorem Usable.lent : Usable E I (lentOf (some o) ++ B) o := .inr (.inr (by simp [lentOf]))

theorem Usable.held (h : E.held o = true) : Usable E I B o := .inr (.inl h)

theorem us_nil : ∀ o ∈ ([] : List Nat), Usable E I B o := fun _ h => (by cases h)

theorem us_cons {l : List Nat} (h : Usable E I B o) (hl : ∀ o ∈ l, Usable E I B o) :
    ∀ k ∈ o :: l, Usable E I B k := by
  intro k hk
  rcases List.mem_cons.mp hk with rfl | hk
  · exact h
  · exact hl k hk

end

/-- Proves that objects are usable, from hypotheses about the arguments. -/
macro "us" : tactic => `(tactic| with_reducible repeat' first
  | assumption
  | exact us_nil
  | refine us_cons ?_ ?_
  | exact Usable.self
  | exact Usable.selfp
  | exact Usable.lent
  | exact Usable.held (Kept.none ‹_›)
  | exact Usable.held (Kept.notImplemented ‹_›)
  | exact Usable.held (Kept.threadLocal ‹_›)
  | exact Usable.held (Kept.defaultChecker ‹_›)
  | exact Usable.held (Kept.checkers ‹_›)
  | exact Usable.held (Kept.available ‹_›)
  | exact Usable.held (Kept.proxyType ‹_›)
  | exact Usable.held (Kept.const ‹_› _)
  | exact Usable.held (Kept.typeOf ‹_› _)
  | exact Usable.held (Kept.wrapped ‹_› _ ‹_›)
  | exact Usable.held (Kept.checkerOf ‹_› _ ‹_›)
  | exact Usable.held ‹_›
  | apply Usable.app
  | apply Usable.add
  | apply Usable.addp)

/-- Proves that two descriptions of owned references agree. -/
macro "refs" : tactic => `(tactic| (intros; simp only [add, addp, id]; try omega))

/-- The result description of functions returning an object. -/
abbrev ObjErr (e : Bool) : Ptr → Bool := fun p => p.isNone || e

/-- The result description of functions returning an int. -/
abbrev IntErr (e : Bool) : Int → Bool := fun i => decide (i < 0) || e

/-- Closes a branch. -/
macro "done!" : tactic => `(tactic| exact Good.pure _ (by refs) (by intro _ h; cases h) (by simp_all [IntErr, ObjErr] <;> (intros; omega)))

section
variable {E : Env} {I : Nat → Nat} {B : List Ptr} {e : Bool}

theorem raiseForbidden_good (hK : Kept E) {object name : Nat} (ho : Usable E I B object) (hn : Usable E I B name) :
    Good E I B e (raiseForbidden E object name) (fun _ => I) (fun _ => []) (fun _ => true) := by
  refine .bind (.api (by us)) fun args => ?_
  cases args with
  | none => done!
  | some args => exact .bind (.setObject (by us) (by us)) fun _ => .decref (by refs)

theorem raiseUnauthorized_good (hK : Kept E) {permission object name : Nat} (hp : Usable E I B permission)
    (ho : Usable E I B object) (hn : Usable E I B name) :
    Good E I B e (raiseUnauthorized E permission object name) (fun _ => I) (fun _ => []) (fun i => decide (i < 0) || e) := by
  refine .bind (.api (by us)) fun r => ?_
  cases r with
  | none => done!
  | some r =>
    refine .bind (.setObject (by us) (by us)) fun _ => .bind (.decref (J := I) (by refs)) fun _ => ?_
    done!

theorem checkPermission_good (hK : Kept E) {permission object name : Nat} (hp : Usable E I B permission)
    (ho : Usable E I B object) (hn : Usable E I B name) :
    Good E I B e (checkPermission E permission object name) (fun _ => I) (fun _ => []) (fun i => decide (i < 0) || e) := by
  refine .bind (.api (by us)) fun ix => ?_
  cases ix with
  | none => done!
  | some ix =>
    refine .bind (.api (by us)) fun r => .bind (.decref (J := addp I r) (by cases r <;> refs)) fun _ => ?_
    cases r with
    | none => done!
    | some r =>
      refine .bind (.callInt (by decide) (by decide) (by us)) fun i => .bind (.decref (J := I) (by refs)) fun _ => ?_
      refine .ite (fun hi => ?_) fun hi => .ite (fun hi' => ?_) fun hi' => ?_
      · done!
      · done!
      · refine (raiseUnauthorized_good hK (by us) (by us) (by us)).conseq (by refs) (by intro _ _ h; cases h) ?_
        simp [hi]

theorem text_good {name : Nat} {k : List Char → C α} {K B'' e''} (hn : Usable E I B name)
    (hk : ∀ t, Good E I B e (k t) K B'' e'') :
    Good E I B e (makeString E name >>= fun s => readText E s >>= k) K B'' e'' := by
  refine .bind (.makeString hn) fun s => ?_
  cases s with
  | none => exact fun m hm => hm.lent _ (List.mem_append_left _ (List.mem_singleton.mpr rfl))
  | some b =>
    refine .bind (.readText (List.mem_append_left _ (List.mem_singleton.mpr rfl))) fun t => ?_
    exact (hk t).weaken fun o ho => List.mem_append_right _ (List.mem_append_right _ ho)

theorem isOperator_good {name : Nat} (hn : Usable E I B name) :
    Good E I B e (isOperator E name) (fun _ => I) (fun _ => []) (fun _ => e) := by
  refine .bind (.use hn) fun _ => .ite (fun _ => ?_) fun _ => by done!
  refine text_good (by us) fun t => .ite (fun _ => ?_) fun _ => by done!
  exact text_good (by us) fun t => by done!

theorem checkUndeclared_good (hK : Kept E) {object name : Nat} (ho : Usable E I B object) (hn : Usable E I B name) :
    Good E I B e (checkUndeclared E object name) (fun _ => I) (fun _ => []) (IntErr e) := by
  refine .bind (isOperator_good hn) fun op => ?_
  have hf : ∀ {B' : List Ptr}, Good E I (B' ++ B) e (do raiseForbidden E object name; pure (-1)) (fun _ => I) (fun _ => []) (IntErr e) :=
    .bind (raiseForbidden_good hK (by us) (by us)) fun _ => by done!
  refine .ite (fun _ => ?_) fun _ => hf
  refine .bind (.callInt (by decide) (by decide) (by us)) fun ic => ?_
  refine .ite (fun hi => by done!) fun hi => ?_
  have he : (decide (ic < 0) || e) = e := by simp [hi]
  rw [he]
  refine .ite (fun hi' => by done!) fun hi' => ?_
  refine text_good (by us) fun t => .ite (fun _ => ?_) fun _ => ?_
  · refine .bind (.callTest (by us)) fun h => .ite (fun _ => ?_) fun _ => by done!
    exact hf.weaken (B0 := [] ++ B) (by simp_all)
  · exact hf.weaken (B0 := [] ++ B) (by simp_all)

theorem checkInt_good (hK : Kept E) {self object name : Nat} (ho : Usable E I B object) (hn : Usable E I B name) :
    Good E I B e (checkInt E self object (some name)) (fun _ => I) (fun _ => []) (IntErr e) := by
  show Good E I B e (checkNamed E self object name) _ _ _
  refine .bind (.loadGetperms self) fun perms => .bind (.lookup (by rintro d rfl; us) (by us)) fun permission => ?_
  cases permission with
  | none => exact checkUndeclared_good hK (by us) (by us)
  | some permission =>
    refine .ite (fun _ => by done!) fun _ => .bind (checkPermission_good hK (by us) (by us) (by us)) fun i => ?_
    exact .ite (fun hi => by done!) fun hi => by done!

theorem returnNone_good (hK : Kept E) :
    Good E I B e (returnNone E) (addp I) (fun _ => []) (ObjErr e) :=
  .bind (.incref (by us)) fun _ => by done!

theorem checkerCheck_good (hK : Kept E) {self object name : Nat} (ho : Usable E I B object) (hn : Usable E I B name) :
    Good E I B e (checkerCheck E self object name) (addp I) (fun _ => []) (ObjErr e) := by
  refine .bind (.parse (by us)) fun ok => .ite (fun hok => ?_) fun hok => by done!
  refine .bind (checkInt_good hK (by us) (by us)) fun i => .ite (fun hi => by done!) fun hi => ?_
  have he : IntErr (!ok || e) i = e := by simp [hi, hok]
  rw [he]
  exact returnNone_good hK

theorem checkerCheckSetattr_good (hK : Kept E) {self object name : Nat} (ho : Usable E I B object)
    (hn : Usable E I B name) :
    Good E I B e (checkerCheckSetattr E self object name) (addp I) (fun _ => []) (ObjErr e) := by
  refine .bind (.parse (by us)) fun ok => .ite (fun hok => ?_) fun hok => by done!
  have he : (!ok || e) = e := by simp [hok]
  rw [he]
  refine .bind (.loadSetperms self) fun perms => .bind (.lookup (by rintro d rfl; us) (by us)) fun permission => ?_
  cases permission with
  | none => exact .bind (raiseForbidden_good hK (by us) (by us)) fun _ => by done!
  | some permission =>
    refine .ite (fun _ => returnNone_good hK) fun _ => .bind (checkPermission_good hK (by us) (by us) (by us)) fun i => ?_
    refine .ite (fun hi => by done!) fun hi => ?_
    have he : (decide (i < 0) || e) = e := by simp [hi]
    rw [he]
    exact returnNone_good hK

theorem permissionId_good (hK : Kept E) {self name : Nat} (hn : Usable E I B name) :
    Good E I B e (permissionId E self name) (addp I) (fun _ => []) (ObjErr e) := by
  refine .bind (.loadGetperms self) fun perms => .bind (.lookup (by rintro d rfl; us) (by us)) fun permission => ?_
  cases permission with
  | none => exact .bind (.incref (by us)) fun _ => by done!
  | some permission => exact .bind (.incref (by us)) fun _ => by done!

theorem setattrPermissionId_good (hK : Kept E) {self name : Nat} (hn : Usable E I B name) :
    Good E I B e (setattrPermissionId E self name) (addp I) (fun _ => []) (ObjErr e) := by
  refine .bind (.loadSetperms self) fun perms => .bind (.lookup (by rintro d rfl; us) (by us)) fun permission => ?_
  cases permission with
  | none => exact .bind (.incref (by us)) fun _ => by done!
  | some permission => exact .bind (.incref (by us)) fun _ => by done!

theorem selectLoop_good (hK : Kept E) {object checker fuel : Nat} (ho : Usable E I B object) :
    Good E (add I checker) B e (selectLoop E object fuel checker) (addp I) (fun _ => []) (ObjErr e) := by
  induction fuel generalizing checker B e with
  | zero => exact fun _ _ => trivial
  | succ n ih =>
    refine .bind (.use (by us)) fun _ => .ite (fun _ => by done!) fun _ => ?_
    refine .bind (.api (by us)) fun c => .bind (.decref (J := addp I c) (by cases c <;> refs)) fun _ => ?_
    cases c with
    | none => done!
    | some c =>
      refine .ite (fun _ => ?_) fun _ => ?_
      · exact .bind (.decref (J := I) (by refs)) fun _ => returnNone_good hK
      · exact ih (by us)

/-- If `isinstance` raises an exception, this is on record. -/
theorem isInstance_good {args : List Nat} (h : ∀ o ∈ args, Usable E I B o) :
    Good E I B e (callInt E .isInstance .isInstance args) (fun _ => I) (fun _ => []) (fun _ => e) := by
  refine .bind (.useAll h) fun _ => ?_
  intro m hm
  have hrun : ∀ k : Reply → C Int, (consult E .isInstance .isInstance args >>= k) m = k (E.reply m.log.length)
      { m with log := (.isInstance, E.reply m.log.length) :: m.log,
               asked := ⟨.isInstance, args, m.raised, E.reply m.log.length⟩ :: m.asked,
               loose := fun o => m.loose o && !((E.reply m.log.length).drops.contains o) } := fun _ => rfl
  rw [hrun, ite_run]
  have hl : ∀ o, Lent E m o → Lent E _ o := fun o h => lent_consult (k := .isInstance) (f := .isInstance) (args := args) (r := E.reply m.log.length) h
  by_cases hr : (E.reply m.log.length).num < 0
  · rw [if_pos hr]
    refine ⟨fun o => ?_, fun o h => ?_, fun _ h => (by cases h), .inl ⟨_, List.mem_cons_self .., rfl, hr⟩, [(.isInstance, _)], rfl⟩
    · simp [leaks, leakedBy]
    · have := hl o h
      cases o <;> exact this
  · rw [if_neg hr]
    refine ⟨fun o => ?_, hl, fun _ h => (by cases h), ?_, [(.isInstance, _)], rfl⟩
    · simp [leaks, leakedBy]
    · exact hm.err.cons

theorem selectChecker_good (hK : Kept E) {object fuel : Nat} (ho : Usable E I B object) :
    Good E I B e (selectChecker E fuel object) (addp I) (fun _ => []) (ObjErr e) := by
  refine .bind (.use ho) fun _ => .bind (.dictGet (by us) (by us)) fun c => ?_
  have hc : ∀ {B' : List Ptr}, (∀ p ∈ lentOf c, p ∈ B') → Usable E I B' (c.getD E.defaultChecker) := by
    intro B' h
    cases c with
    | none => exact .held hK.defaultChecker
    | some c => exact .inr (.inr (h _ (List.mem_singleton.mpr rfl)))
  refine .ite (fun _ => returnNone_good hK) fun _ => ?_
  refine .bind (J := fun _ => I) (B' := fun _ => []) (e' := fun _ => e) ?_ fun exc => ?_
  · refine .ite (fun _ => ?_) fun _ => by done!
    exact .bind (isInstance_good (by us)) fun i => by done!
  · refine .ite (fun _ => returnNone_good hK) fun _ => ?_
    refine .bind (.incref (hc fun p hp => ?_)) fun _ => selectLoop_good hK (by us)
    simp [hp]

/-- Asking for `__Security_checker__`: a None is never released. -/
theorem securityChecker_good {args : List Nat} (h : ∀ o ∈ args, Usable E I B o) :
    Good E I B e (callObj E .securityChecker .getAttr args) (fun p => if p = some E.none then I else addp I p)
      (fun _ => []) (ObjErr e) := by
  refine .bind (.useAll h) fun _ => ?_
  intro m hm
  have hrun : ∀ k : Reply → C Ptr, (consult E .securityChecker .getAttr args >>= k) m = k (E.reply m.log.length)
      { m with log := (.securityChecker, E.reply m.log.length) :: m.log,
               asked := ⟨.getAttr, args, m.raised, E.reply m.log.length⟩ :: m.asked,
               loose := fun o => m.loose o && !((E.reply m.log.length).drops.contains o) } := fun _ => rfl
  rw [hrun, ite_run]
  have hl : ∀ o, Lent E m o → Lent E _ o := fun o h => lent_consult (k := .securityChecker) (f := .getAttr) (args := args) (r := E.reply m.log.length) h
  by_cases hr : (E.reply m.log.length).null = true
  · rw [if_pos hr]
    refine ⟨fun o => ?_, fun o h => ?_, fun _ h => (by cases h), .inr (.inr rfl), [(.securityChecker, _)], rfl⟩
    · simp [leaks, leakedBy, hr, addp]
    · have := hl o h
      cases o <;> exact this
  · rw [if_neg hr]
    refine ⟨fun o => ?_, fun o h => ?_, fun _ h => (by cases h), ?_, [(.securityChecker, _)], rfl⟩
    · simp only [leaks, List.countP_cons, leakedBy, hr, Option.some.injEq]
      by_cases hn : (E.reply m.log.length).obj = E.none
      · by_cases ho : o = E.none
        · subst ho; simp [hn]; omega
        · simp [hn, ho, Ne.symm ho]
      · by_cases ho : o = (E.reply m.log.length).obj
        · subst ho; simp [hn, addp, add]; omega
        · simp [hn, ho, Ne.symm ho, addp, add]
    · have := hl o h
      cases o <;> exact this
    · simpa [ObjErr] using hm.err.cons

theorem makeProxy_good (hK : Kept E) {value checker : Nat} (hv : Usable E I B value) :
    Good E (add I checker) B e (makeProxy E value checker) (addp I) (fun _ => []) (ObjErr e) := by
  refine .bind (.api (by us)) fun r => .bind (.decref (J := addp I r) (by cases r <;> refs)) fun _ => ?_
  cases r <;> done!

theorem checkerProxy_good (hK : Kept E) {value fuel : Nat} (hv : Usable E I B value) :
    Good E I B false (checkerProxy E fuel value) (addp I) (fun _ => []) (ObjErr false) := by
  refine .bind (.use hv) fun _ => .ite (fun _ => ?_) fun _ => ?_
  · exact .bind (.incref (by us)) fun _ => by done!
  · refine .bind (securityChecker_good (by us)) fun c => ?_
    cases c with
    | none =>
      refine .bind .clearErr fun _ => .bind (selectChecker_good (I := I) hK (by us)) fun c => ?_
      cases c with
      | none => done!
      | some c =>
        refine .ite (fun _ => ?_) fun _ => makeProxy_good hK (by us)
        exact .bind (.decref (J := I) (by refs)) fun _ => .bind (.incref (by us)) fun _ => by done!
    | some c =>
      by_cases hc : c = E.none
      · subst hc
        rw [if_pos rfl]
        refine .ite (fun _ => ?_) fun h => absurd rfl h
        refine .bind (.api (by us)) fun errv => ?_
        cases errv with
        | none => done!
        | some errv =>
          exact .bind (.setObject (by us) (by us)) fun _ => .bind (.decref (J := I) (by refs)) fun _ => by done!
      · rw [if_neg (by simpa using hc)]
        refine .ite (fun h => absurd h hc) fun _ => makeProxy_good hK (by us)

/-! ### _proxy.c -/

theorem check_good (hK : Kept E) {self name : Nat} {meth : String} (hs : E.held self = true) (hn : Usable E I B name) :
    Good E I B false (check E self meth name) (fun _ => I) (fun _ => []) (IntErr false) := by
  have hm : Good E I B false (do
      let r ← callObj E .api .callMethod [E.checkerOf self, E.const meth, E.wrapped self, name]
      match r with
      | .none => pure (-1)
      | some r => do
        decref E r
        pure 0 : C Int) (fun _ => I) (fun _ => []) (IntErr false) := by
    refine .bind (.api (by us)) fun r => ?_
    cases r with
    | none => done!
    | some r => exact .bind (.decref (J := I) (by refs)) fun _ => by done!
  unfold check
  refine .ite (fun _ => hm) fun _ => ?_
  split
  · exact hm
  · exact checkInt_good hK (by us) hn
  · exact .callInt (by decide) (by decide) (by us)

theorem proxyResult_good (hK : Kept E) {self fuel : Nat} {p : Ptr} (hs : E.held self = true) (he : p.isNone = e) :
    Good E (addp I p) B e (proxyResult E fuel self p) (addp I) (fun _ => []) (ObjErr false) := by
  cases p with
  | none => subst he; done!
  | some r =>
    subst he
    refine .bind (J := fun q => addp (add I r) q) (B' := fun _ => []) (e' := ObjErr false) ?_ fun tmp => ?_
    · unfold protect
      split
      · exact checkerProxy_good hK (by us)
      · exact .api (by us)
      · exact .api (by us)
    · refine .bind (.decref (J := addp I tmp) (by cases tmp <;> refs)) fun _ => ?_
      cases tmp <;> done!

theorem checked_good (hK : Kept E) {self fuel name : Nat} {meth : String} {x : C Ptr} (hs : E.held self = true)
    (hn : Usable E I B name) (hx : ∀ B', Good E I (B' ++ B) false x (addp I) (fun _ => []) (ObjErr false)) :
    Good E I B false (do
      let i ← check E self meth name
      if 0 ≤ i then do
        let result ← x
        proxyResult E fuel self result
      else pure .none : C Ptr) (addp I) (fun _ => []) (ObjErr false) := by
  refine .bind (check_good hK hs hn) fun i => .ite (fun hi => ?_) fun hi => by done!
  have he : IntErr false i = false := by simp [IntErr]; omega
  rw [he]
  exact .bind (hx _) fun p => proxyResult_good hK hs (by simp [ObjErr])

theorem storeGetperms_good {self : Nat} {p : Ptr} {J : Nat → Nat} (h : ∀ k, I k = addp J p k) :
    Good E I B e (storeGetperms self p) (fun _ => J) (fun _ => []) (fun _ => e) := by
  refine .bind (J := fun _ => J) (B' := fun _ => []) (e' := fun _ => e) ?_ fun _ => ?_
  · cases p with
    | none => exact .pure _ (fun o => (h o).symm) (by intro _ h; cases h) rfl
    | some o => exact .give h
  · exact fun m hm => ⟨fun _ => rfl, fun o h => by cases o <;> exact h, fun _ h => (by cases h), hm.err, [], rfl⟩

theorem storeSetperms_good {self : Nat} {p : Ptr} {J : Nat → Nat} (h : ∀ k, I k = addp J p k) :
    Good E I B e (storeSetperms self p) (fun _ => J) (fun _ => []) (fun _ => e) := by
  refine .bind (J := fun _ => J) (B' := fun _ => []) (e' := fun _ => e) ?_ fun _ => ?_
  · cases p with
    | none => exact .pure _ (fun o => (h o).symm) (by intro _ h; cases h) rfl
    | some o => exact .give h
  · exact fun m hm => ⟨fun _ => rfl, fun o h => by cases o <;> exact h, fun _ h => (by cases h), hm.err, [], rfl⟩

theorem takeGetperms_good {self : Nat} :
    Good E I B e (takeGetperms self) (addp I) (fun _ => []) (fun _ => e) := by
  intro m hm
  refine ⟨fun o => ?_, fun o h => by cases o <;> exact h, fun _ h => (by cases h), hm.err, [], rfl⟩
  cases hp : m.getperms self with
  | none => simp [addp]
  | some d =>
    by_cases ho : o = d
    · subst ho; simp [addp, add]; omega
    · simp [addp, add, ho, Ne.symm ho]

theorem takeSetperms_good {self : Nat} :
    Good E I B e (takeSetperms self) (addp I) (fun _ => []) (fun _ => e) := by
  intro m hm
  refine ⟨fun o => ?_, fun o h => by cases o <;> exact h, fun _ h => (by cases h), hm.err, [], rfl⟩
  cases hp : m.setperms self with
  | none => simp [addp]
  | some d =>
    by_cases ho : o = d
    · subst ho; simp [addp, add]; omega
    · simp [addp, add, ho, Ne.symm ho]

theorem checkerClear_good {self : Nat} :
    Good E I B e (checkerClear E self) (fun _ => I) (fun _ => []) (IntErr e) := by
  refine .bind takeGetperms_good fun p => .bind (.xdecref (J := I) (by refs)) fun _ => ?_
  refine .bind takeSetperms_good fun p => .bind (.xdecref (J := I) (by refs)) fun _ => ?_
  done!

theorem xincref_good {p : Ptr} (h : ∀ o, p = some o → Usable E I B o) :
    Good E I B e (xincref E p) (fun _ => addp I p) (fun _ => []) (fun _ => e) := by
  cases p with
  | none => exact .pure _ (fun o => rfl) (by intro _ h; cases h) rfl
  | some o => exact .incref (h o rfl)

theorem us_toList {p : Ptr} (h : ∀ o, p = some o → Usable E I B o) : ∀ o ∈ p.toList, Usable E I B o := by
  intro o ho
  exact h o (Option.mem_toList.mp ho)

theorem checkerInit_good {self getperms : Nat} {setperms : Ptr} (hg : Usable E I B getperms)
    (hs : ∀ o, setperms = some o → Usable E I B o) :
    Good E I B e (checkerInit E self getperms setperms) (fun _ => I) (fun _ => []) (IntErr e) := by
  refine .bind (.parse (us_cons hg (us_toList hs))) fun ok => .ite (fun hok => ?_) fun hok => by done!
  refine .bind (.incref (by us)) fun _ => .bind (storeGetperms_good (J := I) (by refs)) fun _ => ?_
  refine .bind (xincref_good fun o ho => ?_) fun _ => .bind (storeSetperms_good (J := I) (by refs)) fun _ => ?_
  · have := hs o ho; us
  · done!

/-- Storing in a field and reading it again. -/
theorem store_load_get {self d : Nat} {m m' : Mem} (h : storeGetperms self (some d) m = .ok () m') :
    m'.getperms self = some d := by
  simp only [storeGetperms, givePtr, give, Bind.bind] at h
  by_cases ho : m.own d = 0
  · simp [ho] at h
  · rw [if_neg ho] at h
    cases h
    simp

theorem store_load_set {self d : Nat} {m m' : Mem} (h : storeSetperms self (some d) m = .ok () m') :
    m'.setperms self = some d := by
  simp only [storeSetperms, givePtr, give, Bind.bind] at h
  by_cases ho : m.own d = 0
  · simp [ho] at h
  · rw [if_neg ho] at h
    cases h
    simp

theorem storeThenReturnGet {self d : Nat} :
    Good E (add I d) B e (do
      storeGetperms self (some d)
      let d ← loadGetperms self
      returnField E d) (addp I) (fun _ => []) (ObjErr e) := by
  intro m hm
  have h1 := storeGetperms_good (E := E) (B := B) (e := e) (self := self) (p := some d) (J := I) (fun _ => rfl) m hm
  rw [bind_run]
  cases hst : storeGetperms self (some d) m with
  | fault f m' => rw [hst] at h1; exact h1
  | diverge => trivial
  | ok u m' =>
    rw [hst] at h1
    have h2 := Good.loadGetperms self m' (h1.sat hm)
    have hl : loadGetperms self m' = .ok (m'.getperms self)
      { m' with loose := fun o => decide (m'.getperms self = some o) || m'.loose o } := rfl
    have hk : (loadGetperms self >>= returnField E) m' = returnField E (m'.getperms self)
      { m' with loose := fun o => decide (m'.getperms self = some o) || m'.loose o } := rfl
    rw [hl] at h2
    simp only [hk]
    rw [store_load_get hst] at h2 ⊢
    have h3 : Good E I (lentOf (some d) ++ ([] ++ B)) e (returnField E (some d)) (addp I) (fun _ => []) (ObjErr e) :=
      .bind (x := incref E d) (k := fun _ => pure (some d)) (.incref (by us)) fun _ => by done!
    have h4 := h3 _ (h2.sat (h1.sat hm))
    cases hr : returnField E (some d) { m' with loose := fun o => decide (some d = some o) || m'.loose o } with
    | fault f m'' => rw [hr] at h4; exact h4
    | diverge => trivial
    | ok a m'' => rw [hr] at h4; exact (h1.trans h2).trans h4

theorem getGetPermissions_good {self : Nat} :
    Good E I B e (getGetPermissions E self) (addp I) (fun _ => []) (ObjErr e) := by
  refine .bind (.loadGetperms self) fun d => ?_
  cases d with
  | some d => exact .bind (x := incref E d) (k := fun _ => pure (some d)) (.incref (by us)) fun _ => by done!
  | none =>
    refine .bind (.api (by us)) fun d => ?_
    cases d with
    | none => done!
    | some d => exact storeThenReturnGet

theorem storeThenReturnSet {self d : Nat} :
    Good E (add I d) B e (do
      storeSetperms self (some d)
      let d ← loadSetperms self
      returnField E d) (addp I) (fun _ => []) (ObjErr e) := by
  intro m hm
  have h1 := storeSetperms_good (E := E) (B := B) (e := e) (self := self) (p := some d) (J := I) (fun _ => rfl) m hm
  rw [bind_run]
  cases hst : storeSetperms self (some d) m with
  | fault f m' => rw [hst] at h1; exact h1
  | diverge => trivial
  | ok u m' =>
    rw [hst] at h1
    have h2 := Good.loadSetperms self m' (h1.sat hm)
    have hl : loadSetperms self m' = .ok (m'.setperms self)
      { m' with loose := fun o => decide (m'.setperms self = some o) || m'.loose o } := rfl
    have hk : (loadSetperms self >>= returnField E) m' = returnField E (m'.setperms self)
      { m' with loose := fun o => decide (m'.setperms self = some o) || m'.loose o } := rfl
    rw [hl] at h2
    simp only [hk]
    rw [store_load_set hst] at h2 ⊢
    have h3 : Good E I (lentOf (some d) ++ ([] ++ B)) e (returnField E (some d)) (addp I) (fun _ => []) (ObjErr e) :=
      .bind (x := incref E d) (k := fun _ => pure (some d)) (.incref (by us)) fun _ => by done!
    have h4 := h3 _ (h2.sat (h1.sat hm))
    cases hr : returnField E (some d) { m' with loose := fun o => decide (some d = some o) || m'.loose o } with
    | fault f m'' => rw [hr] at h4; exact h4
    | diverge => trivial
    | ok a m'' => rw [hr] at h4; exact (h1.trans h2).trans h4

theorem getSetPermissions_good {self : Nat} :
    Good E I B e (getSetPermissions E self) (addp I) (fun _ => []) (ObjErr e) := by
  refine .bind (.loadSetperms self) fun d => ?_
  cases d with
  | some d => exact .bind (x := incref E d) (k := fun _ => pure (some d)) (.incref (by us)) fun _ => by done!
  | none =>
    refine .bind (.api (by us)) fun d => ?_
    cases d with
    | none => done!
    | some d => exact storeThenReturnSet

/-! ### The functions of _proxy.c -/

theorem api_op {u : UserFn} {args : List Nat} (h : ∀ o ∈ args, Usable E I B o) :
    Good E I B false (api E u args) (addp I) (fun _ => []) (ObjErr false) := .api h

theorem callNumber_good {op : String} {w : Nat} (h : Usable E I B w) :
    Good E I B false (callNumber E op w) (addp I) (fun _ => []) (ObjErr false) := by
  refine .bind (.use h) fun _ => .ite (fun _ => api_op (by us)) fun _ => ?_
  exact .bind .setString fun _ => by done!

theorem notImplemented_good (hK : Kept E) :
    Good E I B false (do incref E E.notImplemented; pure (some E.notImplemented)) (addp I) (fun _ => []) (ObjErr false) :=
  .bind (.incref (by us)) fun _ => by done!

theorem check2_good (hK : Kept E) {self other op rop fuel : Nat} {f : Nat → Nat → C Ptr}
    (hs : E.held self = true) (ho : E.held other = true) (hop : Usable E I B op) (hrop : Usable E I B rop)
    (hf : ∀ a b B', E.held a = true → E.held b = true → Good E I B' false (f a b) (addp I) (fun _ => []) (ObjErr false)) :
    Good E I B false (check2 E fuel self other op rop f) (addp I) (fun _ => []) (ObjErr false) := by
  refine .bind (.useAll (by us)) fun _ => .ite (fun _ => ?_) fun _ => .ite (fun _ => ?_) fun _ => notImplemented_good hK
  · exact checked_good hK hs (by us) fun _ => hf _ _ _ (hK.wrapped _ hs) ho
  · exact checked_good hK ho (by us) fun _ => hf _ _ _ hs (hK.wrapped _ ho)

theorem check2i_good (hK : Kept E) {self other op fuel : Nat} {f : Nat → Nat → C Ptr}
    (hs : E.held self = true) (ho : E.held other = true) (hop : Usable E I B op)
    (hf : ∀ a b B', E.held a = true → E.held b = true → Good E I B' false (f a b) (addp I) (fun _ => []) (ObjErr false)) :
    Good E I B false (check2i E fuel self other op f) (addp I) (fun _ => []) (ObjErr false) := by
  refine .bind (check_good hK hs hop) fun i => .ite (fun hi => ?_) fun hi => by done!
  have he : IntErr false i = false := by simp [IntErr]; omega
  rw [he]
  refine .bind (hf _ _ _ (hK.wrapped _ hs) ho) fun r => .ite (fun hr => ?_) fun hr => proxyResult_good hK hs (by simp [ObjErr])
  subst hr
  exact .bind (.decref (J := I) (by refs)) fun _ => .bind (.incref (by us)) fun _ => by done!

theorem proxyNew_good {type object checker : Nat} (ht : E.held type = true) (ho : E.held object = true)
    (hc : E.held checker = true) :
    Good E I B false (proxyNew E type object checker) (addp I) (fun _ => []) (ObjErr false) := by
  refine .bind (.parse (by us)) fun ok => .ite (fun hok => .ite (fun _ => ?_) fun _ => ?_) fun hok => by done!
  · exact .bind .setString fun _ => by done!
  · refine .bind (.api (by us)) fun s => ?_
    cases s with
    | none => done!
    | some s =>
      refine .bind (.incref (by us)) fun _ => .bind (.incref (by us)) fun _ => ?_
      refine .bind (.give (J := add (add I s) checker) (by refs)) fun _ => .bind (.give (J := add I s) (by refs)) fun _ => ?_
      done!

theorem proxyClear_good {self : Nat} {checker : Ptr} (hs : E.held self = true) :
    Good E I B false (proxyClear E self checker) (fun _ => I) (fun _ => []) (IntErr false) := by
  have h2 : ∀ {B'}, Good E I B' false (do let _ ← callTest E .baseClear [self]; pure 0 : C Int) (fun _ => I) (fun _ => []) (IntErr false) :=
    .bind (.callTest (by us)) fun _ => by done!
  cases checker with
  | none => exact h2
  | some c => exact .bind (.gain c) fun _ => .bind (.decref (J := I) (by refs)) fun _ => h2

theorem proxyRichcompare_good (hK : Kept E) {op : String} {self other fuel : Nat} (hs : E.held self = true) (ho : E.held other = true) :
    Good E I B false (proxyRichcompare E fuel op self other) (addp I) (fun _ => []) (ObjErr false) := by
  refine .bind (api_op (by us)) fun r => .ite (fun hr => ?_) fun _ => proxyResult_good hK hs (by simp [ObjErr])
  exact .pure _ (fun _ => rfl) (by intro _ h; cases h) rfl

theorem next_good {w : Nat} (h : Usable E I B w) :
    Good E I B false (callNext E w) (addp I) (fun _ => []) (ObjErr false) := by
  refine .bind (.use h) fun _ => ?_
  intro m hm
  have hrun : ∀ k : Reply → C Ptr, (consult E .iterNext (.user (.special "__next__")) [w] >>= k) m = k (E.reply m.log.length)
      { m with log := (.iterNext, E.reply m.log.length) :: m.log,
               asked := ⟨(.user (.special "__next__")), [w], m.raised, E.reply m.log.length⟩ :: m.asked,
               loose := fun o => m.loose o && !((E.reply m.log.length).drops.contains o) } := fun _ => rfl
  rw [hrun, ite_run]
  have hl : ∀ o, Lent E m o → Lent E _ o := fun o h => lent_consult (k := .iterNext) (f := (.user (.special "__next__"))) (args := [w]) (r := E.reply m.log.length) h
  by_cases hr : (E.reply m.log.length).null = true
  · rw [if_pos hr]
    refine ⟨fun o => ?_, fun o h => ?_, fun _ h => (by cases h), .inr (.inl ⟨⟨_, List.mem_cons_self .., rfl, hr⟩, rfl⟩), [(.iterNext, _)], rfl⟩
    · simp [leaks, leakedBy, addp]
    · have := hl o h
      cases o <;> exact this
  · rw [if_neg hr]
    refine ⟨fun o => ?_, fun o h => ?_, fun _ h => (by cases h), ?_, [(.iterNext, _)], rfl⟩
    · by_cases ho : o = (E.reply m.log.length).obj
      · subst ho; simp [leaks, leakedBy, addp, add]; omega
      · simp [leaks, leakedBy, addp, add, ho]
    · have := hl o h
      cases o <;> exact this
    · simpa [ObjErr] using hm.err.cons

/-- Reading a text that was not made is fatal, so that nothing need be said about what follows. -/
theorem readText_good {s : Ptr} {e' : Bool} (h : s ∈ B) (he : s = none ∨ e' = e) :
    Good E I B e (readText E s) (fun _ => I) (fun _ => []) (fun _ => e') := by
  cases s with
  | none => exact fun m hm => hm.lent _ h
  | some b =>
    rcases he with h' | rfl
    · cases h'
    · exact .readText h

theorem reprText_good (hK : Kept E) {object klass : Nat} {sname : Ptr} (ho : Usable E I B object)
    (hk : Usable E I B klass) (hs : sname ∈ B) (he : sname = none ∨ e = false) :
    Good E I B e (reprText E object klass sname) (fun p => addp (addp I p.1) p.2) (fun _ => []) (fun p => ObjErr false p.2) := by
  refine .bind (.api (by us)) fun module => ?_
  cases module with
  | some module =>
    refine .bind (.makeString (by us)) fun smodule => ?_
    refine .bind (readText_good (e' := e) (by simp) ?_) fun _ => .bind (readText_good (e' := false) (by simp [hs]) ?_) fun _ => ?_
    · cases smodule <;> simp
    · rcases he with h | h <;> simp [h]
    · exact .bind (.api (by us)) fun r => by done!
  | none =>
    refine .bind .clearErr fun _ => .bind (readText_good (e' := false) (by simp [hs]) (.inr rfl)) fun _ => ?_
    exact .bind (.api (by us)) fun r => by done!

theorem defaultRepr_good (hK : Kept E) {object : Nat} (ho : E.held object = true) :
    Good E I B false (defaultRepr E object) (addp I) (fun _ => []) (ObjErr false) := by
  refine .bind (.api (by us)) fun klass => ?_
  cases klass with
  | none => done!
  | some klass =>
    refine .bind (.api (by us)) fun name => ?_
    cases name with
    | none => exact .bind (.decref (J := I) (by refs)) fun _ => by done!
    | some name =>
      refine .bind (.makeString (by us)) fun sname => .bind (reprText_good hK (by us) (by us) (by simp) ?_) fun p => ?_
      · cases sname <;> simp
      · obtain ⟨module, result⟩ := p
        refine .bind (.decref (J := addp (addp (add I name) module) result) ?_) fun _ =>
          .bind (.decref (J := addp (addp I module) result) ?_) fun _ =>
          .bind (.xdecref (J := addp I result) ?_) fun _ => by done!
        · intro k; cases module <;> cases result <;> simp only [add, addp] <;> omega
        · intro k; cases module <;> cases result <;> simp only [add, addp] <;> omega
        · intro k; cases module <;> cases result <;> simp only [add, addp] <;> omega

theorem proxyText_good (hK : Kept E) {self : Nat} {op : String} (hs : E.held self = true) :
    Good E I B false (proxyText E self op) (addp I) (fun _ => []) (ObjErr false) := by
  refine .bind (check_good hK hs (by us)) fun i => .ite (fun hi => ?_) fun hi => ?_
  · have he : IntErr false i = false := by simp [IntErr]; omega
    rw [he]
    exact api_op (by us)
  · exact .bind .clearErr fun _ => defaultRepr_good hK (hK.wrapped _ hs)

/-- A checked operation returning an int. -/
theorem checkedInt_good (hK : Kept E) {self name : Nat} {meth : String} {f : Fn} {args : List Nat} (hs : E.held self = true)
    (hn : Usable E I B name) (hx : ∀ B', ∀ o ∈ args, Usable E I (B' ++ B) o) :
    Good E I B false (do
      let i ← check E self meth name
      if 0 ≤ i then callInt E .int f args
      else pure (-1) : C Int) (fun _ => I) (fun _ => []) (IntErr false) := by
  refine .bind (check_good hK hs hn) fun i => .ite (fun hi => ?_) fun hi => by done!
  have he : IntErr false i = false := by simp [IntErr]; omega
  rw [he]
  exact .callInt (by decide) (by decide) (hx _)

theorem us_opt {p : Ptr} (hp : ∀ o, p = some o → E.held o = true) : ∀ o ∈ p.toList, Usable E I B o := by
  intro o h
  cases p with
  | none => cases h
  | some v => rcases List.mem_singleton.mp h with rfl; exact .held (hp _ rfl)

theorem proxySetattro_good (hK : Kept E) {self name : Nat} {value : Ptr} (hs : E.held self = true)
    (hn : E.held name = true) (hv : ∀ o, value = some o → E.held o = true) :
    Good E I B false (proxySetattro E self name value) (fun _ => I) (fun _ => []) (IntErr false) := by
  cases value with
  | none => exact checkedInt_good hK hs (.held hn) fun _ => by us
  | some v =>
    have := hv v rfl
    exact checkedInt_good hK hs (.held hn) fun _ => by us

theorem powWith_good (hK : Kept E) {p name fuel : Nat} {args : List Nat} (hs : E.held p = true) (hn : Usable E I B name)
    (ha : ∀ B', ∀ o ∈ args, Usable E I B' o) :
    Good E I B false (powWith E fuel p name args) (addp I) (fun _ => []) (ObjErr false) :=
  checked_good hK hs hn fun _ => api_op (ha _)

theorem proxyPow_good (hK : Kept E) {self other fuel : Nat} {modulus : Ptr} (hs : E.held self = true)
    (ho : E.held other = true) (hm : ∀ o, modulus = some o → E.held o = true) :
    Good E I B false (proxyPow E fuel self other modulus) (addp I) (fun _ => []) (ObjErr false) := by
  refine .bind (.useAll (us_cons (by us) (us_cons (by us) (us_opt hm)))) fun _ => .ite (fun _ => ?_) fun _ => .ite (fun _ => ?_) fun _ => ?_
  · exact powWith_good hK hs (by us) fun _ => us_cons (by us) (us_cons (by us) (us_opt hm))
  · exact powWith_good hK ho (by us) fun _ => us_cons (by us) (us_cons (by us) (us_opt hm))
  · cases modulus with
    | none => exact notImplemented_good hK
    | some md =>
      have hmd := hm md rfl
      exact .ite (fun _ => powWith_good hK hmd (by us) fun _ => by us) fun _ => notImplemented_good hK

theorem proxyLengthHint_good (hK : Kept E) {self : Nat} (hs : E.held self = true) :
    Good E I B false (proxyLengthHint E self) (addp I) (fun _ => []) (ObjErr false) := by
  refine .bind (api_op (by us)) fun r => ?_
  cases r with
  | some r => done!
  | none =>
    refine .bind (.callTest (by us)) fun b => .ite (fun _ => ?_) fun _ => by done!
    exact .bind .clearErr fun _ => notImplemented_good hK

theorem proxyGetitem_good (hK : Kept E) {self key fuel : Nat} (hs : E.held self = true) (hk : ∀ B', Usable E I B' key) :
    Good E I B false (proxyGetitem E fuel self key) (addp I) (fun _ => []) (ObjErr false) :=
  checked_good hK hs (by us) fun _ => api_op (us_cons (by us) (us_cons (hk _) us_nil))

theorem proxySetitem_good (hK : Kept E) {self key : Nat} {value : Ptr} (hs : E.held self = true)
    (hk : ∀ B', Usable E I B' key) (hv : ∀ o, value = some o → E.held o = true) :
    Good E I B false (proxySetitem E self key value) (fun _ => I) (fun _ => []) (IntErr false) := by
  cases value with
  | none => exact checkedInt_good hK hs (by us) fun _ => us_cons (by us) (us_cons (hk _) us_nil)
  | some v =>
    have := hv v rfl
    exact checkedInt_good hK hs (by us) fun _ => us_cons (by us) (us_cons (hk _) (us_cons (by us) us_nil))

theorem proxyIgetitem_good (hK : Kept E) {self fuel : Nat} {i : Int} (hs : E.held self = true) :
    Good E I B false (proxyIgetitem E fuel self i) (addp I) (fun _ => []) (ObjErr false) := by
  refine .bind (.api (by us)) fun key => ?_
  cases key with
  | none => done!
  | some key =>
    refine .bind (proxyGetitem_good hK hs fun _ => by us) fun r =>
      .bind (.decref (J := addp I r) (by intro k; cases r <;> simp only [add, addp] <;> omega)) fun _ => by done!

theorem proxyIsetitem_good (hK : Kept E) {self : Nat} {i : Int} {value : Ptr} (hs : E.held self = true)
    (hv : ∀ o, value = some o → E.held o = true) :
    Good E I B false (proxyIsetitem E self i value) (fun _ => I) (fun _ => []) (IntErr false) := by
  refine .bind (.api (by us)) fun key => ?_
  cases key with
  | none => done!
  | some key =>
    exact .bind (proxySetitem_good hK hs (fun _ => by us) hv) fun i => .bind (.decref (J := I) (by refs)) fun _ => by done!

theorem getChecker_good (hK : Kept E) {arg : Nat} (ha : E.held arg = true) :
    Good E I B false (getChecker E arg) (addp I) (fun _ => []) (ObjErr false) := by
  refine .bind (.use (by us)) fun _ => .ite (fun _ => ?_) fun _ => ?_
  · exact .bind (.incref (by us)) fun _ => by done!
  · exact .bind .setString fun _ => by done!

theorem getObject_good (hK : Kept E) {arg : Nat} (ha : E.held arg = true) :
    Good E I B false (getObject E arg) (addp I) (fun _ => []) (ObjErr false) := by
  refine .bind (.use (by us)) fun _ => .ite (fun _ => ?_) fun _ => ?_
  · exact .bind (.incref (by us)) fun _ => by done!
  · exact .bind (.incref (by us)) fun _ => by done!

end

end ZS.CM
