import Verif.Props.Deploy
import Verif.Spec.DeployPy

/-!
# C72 From the configuration file to the operation, with pure-Python proxies
-/

namespace ZS.Props
open Spec
variable {A : Type}

/-- The declarations are those of `s0` and no slot of a proxy has been assigned. -/
abbrev Same1 (s0 s : St A) : Prop := protection s = protection s0 ∧ Untouched s

theorem same1_keeps {X : Ctx A} {s0 : St A} (h : ReliesPy X.W s0) : Keeps (Same1 s0) X.W :=
  ⟨fun r s hs => ⟨(h.declarations r s).trans hs.1, fun id => by rw [(h.slots r s).1, (h.slots r s).2]; exact hs.2 id⟩,
    fun _ _ h => h, fun _ h => h⟩

theorem untouched_slots {X : Ctx A} {s : St A} (h : Untouched s) (id : Nat) (w c : Val) :
    proxyWrapped X s id w = w ∧ proxyChecker X s id c = c := by
  unfold proxyWrapped proxyChecker
  rw [(h id).1, (h id).2]
  cases X.impl <;> exact ⟨rfl, rfl⟩

/-- The result is a registry's proxy or none, whenever everything was in order at the beginning. -/
def IssuesPy (X : Ctx A) (s0 : St A) (x : M A Val) : Prop :=
  ∀ s, Same1 s0 s → ∀ v s', x s = (.ok v, s') → Issued X.W s0.reg v

namespace IssuesPy
variable {E : Ext} {X : Ctx A} {s0 : St A}

theorem bind {α : Type} {x : M A α} {f : α → M A Val} (hx : Pres (Same1 s0) x) (hf : ∀ a, IssuesPy X s0 (f a)) :
    IssuesPy X s0 (x >>= f) := by
  intro s hs v s' h
  obtain ⟨a, s1, h1, h2⟩ := bind_eq_ok h
  have := hx s hs
  rw [h1] at this
  exact hf a s1 this v s' h2

theorem state {f : St A → M A Val} (hf : ∀ s, Same1 s0 s → IssuesPy X s0 (f s)) : IssuesPy X s0 (M.get >>= f) :=
  fun s hs v s' h => hf s hs s hs v s' h

theorem perform_fit (h : ReliesPy X.W s0) {r : RawOp} {s s' : St A} {v : Val} (hs : Same1 s0 s)
    (hp : ZS.perform X r s = (.ok v, s')) : Fit X s0 v := by
  obtain ⟨s1, h1⟩ := perform_ok hp
  exact h.results _ { s with trace := s.trace ++ [.performed r] } _ _ hs.1 h1

theorem perform (h : ReliesPy X.W s0) {r : RawOp} {f : Val → M A Val} (hf : ∀ v, Fit X s0 v → IssuesPy X s0 (f v)) :
    IssuesPy X s0 (ZS.perform X r >>= f) := by
  intro s hs v s' hr
  obtain ⟨a, s1, h1, h2⟩ := bind_eq_ok hr
  have := Pres.perform (same1_keeps h) r s hs
  rw [h1] at this
  exact hf a (perform_fit h hs h1) s1 this v s' h2

theorem basic {x : M A Val} (h : ∀ s v s', x s = (.ok v, s') → Basic v) : IssuesPy X s0 x :=
  fun s _ v s' hx => issued_basic (h s v s' hx)

theorem throw (e : Exn) : IssuesPy X s0 (M.throw e) := fun _ _ _ _ h => by cases h

theorem pureBasic {v : Val} (h : Basic v) : IssuesPy X s0 (pure v) := by
  intro s _ r s' hx; cases hx; exact issued_basic h

theorem tryCatch {x : M A Val} {p : Exn → Bool} {g : Exn → M A Val} (hp : Pres (Same1 s0) x)
    (hx : IssuesPy X s0 x) (hg : ∀ e, IssuesPy X s0 (g e)) : IssuesPy X s0 (M.tryCatch x p g) := by
  intro s hs v s' h
  rw [run_tryCatch] at h
  have hp' := hp s hs
  rcases hxs : x s with ⟨r, s1⟩
  rw [hxs] at h hp'
  cases r with
  | ok a => cases h; exact hx s hs _ _ hxs
  | err e =>
    simp only at h
    split at h
    · exact hg e s1 hp' v s' h
    · cases h
  | diverge => cases h

theorem proxy (hi : X.impl = .py) (hE : Stock E s0) (h : ReliesPy X.W s0) {c v : Val} (hchk : IsChecker c) (hv : Fit X s0 v) :
    IssuesPy X s0 (chkProxy X c v) := by
  intro s hs r s' hr
  have hck : c.isChecker = true := by rcases hchk with ⟨_, _, _, rfl⟩ | ⟨_, _, _, _, rfl⟩ <;> rfl
  replace hr : proxyPy X v s = (.ok r, s') := by
    rw [← hr]
    unfold chkProxy
    rw [if_pos hck, hi]
  by_cases hp : v.isProxy = true
  · have : proxyPy X v s = (.ok v, s) := congrFun (if_pos hp) s
    rw [this] at hr
    cases hr
    exact hv.1
  · have : proxyPy X v s = (do
        let c ← orNone (getSC X v)
        if c = .none then do
          let c ← selectChecker X v
          if c = .none then pure v else newProxy v c
        else newProxy v c : M A Val) s := congrFun (if_neg hp) s
    rw [this] at hr
    obtain ⟨k0, s1, h1, h2⟩ := bind_eq_ok hr
    have hg := Pres.orNone (Pres.getSC (same1_keeps h) v) s hs
    rw [h1] at hg
    have hk0 : k0 = .none := by
      unfold orNone at h1
      rw [run_tryCatch] at h1
      rcases hgs : getSC X v s with ⟨x, s2⟩
      rw [hgs] at h1
      cases x with
      | ok k => exact absurd hgs (getSC_none h.toRelies hv.2)
      | diverge => cases h1
      | err e =>
        simp only at h1
        split at h1 <;> cases h1
        rfl
    rw [if_pos hk0] at h2
    obtain ⟨k, s2, h3, h4⟩ := bind_eq_ok h2
    by_cases hk : k = .none
    · rw [if_pos hk] at h4
      cases h4
      exact hv.1
    · rw [if_neg hk, run_newProxy v k s2 hk] at h4
      cases h4
      intro i w c' he
      cases he
      refine ⟨?_, select_assigned hE (congrArg (·.1) hg.1) h3 hk⟩
      rintro ⟨_, _, _, rfl⟩
      exact hp rfl

end IssuesPy

section
variable {E : Ext} {X : Ctx A} {s0 : St A}

theorem checkNamePy_issues (hi : X.impl = .py) (hE : Stock E s0) (h : ReliesPy X.W s0) {id : Nat} {w c : Val} {n : Name}
    {r : Val → RawOp} (hk : IsChecker c) : IssuesPy X s0 (checkNamePy X id w c n r) :=
  .state fun s hs => .bind (.guard (same1_keeps h) _ _ _ _) fun _ => .bind .get fun _ => .perform h fun _ hv =>
    .proxy hi hE h (by rw [(untouched_slots hs.2 id w c).2]; exact hk) hv

theorem checkNameNonePy_issues (h : ReliesPy X.W s0) {id : Nat} {w c : Val} {n : Name} {r : Val → RawOp} :
    IssuesPy X s0 (checkNameNonePy X id w c n r) :=
  .state fun _ _ => .bind (.guard (same1_keeps h) _ _ _ _) fun _ => .bind .get fun _ => .perform h fun _ _ =>
    .bind (.chkProxy (same1_keeps h) _ _) fun _ => .pureBasic basic_none

theorem binPy_issues (hi : X.impl = .py) (hE : Stock E s0) (h : ReliesPy X.W s0) (b : BinName) {l r : Val} (hl : ArgOK l) (hr : ArgOK r) :
    IssuesPy X s0 (binPy X b l r) := by
  unfold binPy
  split
  · exact checkNamePy_issues hi hE h (hl _ _ _ rfl)
  · exact checkNamePy_issues hi hE h (hr _ _ _ rfl)
  · exact .pureBasic basic_notImpl

theorem powPy_issues (hi : X.impl = .py) (hE : Stock E s0) (h : ReliesPy X.W s0) {x y m : Val} (hx : ArgOK x) (hy : ArgOK y) :
    IssuesPy X s0 (powPy X x y m) := by
  unfold powPy
  split
  · exact checkNamePy_issues hi hE h (hx _ _ _ rfl)
  · exact checkNamePy_issues hi hE h (hy _ _ _ rfl)
  · exact .pureBasic basic_notImpl

theorem strPy_issues (hi : X.impl = .py) (hE : Stock E s0) (h : ReliesPy X.W s0) {id : Nat} {w c : Val} {n : Name} (hk : IsChecker c) :
    IssuesPy X s0 (strPy X id w c n) := by
  have K := same1_keeps h
  intro s hs v s' hr
  unfold strPy at hr
  obtain ⟨a, s1, h1, h2⟩ := bind_eq_ok hr
  have hs1 := Pres.tryCatch (p := fun e => decide (e ≠ .typeError)) (h := fun _ => do
      let s ← M.get
      defaultReprPy X (proxyWrapped X s id w))
    (.checkNamePy K id w c n (fun w => .special n w [])) (fun _ => .bind .get fun _ => .defaultReprPy K _) s hs
  rw [h1] at hs1
  refine asStr_issues (s0 := s0) ?_ s1 hs1.1 v s' h2
  exact IssuesPy.tryCatch (.checkNamePy K _ _ _ _ _) (checkNamePy_issues hi hE h hk)
    (fun _ => .state fun _ _ => .basic fun _ _ _ h => defaultReprPy_basic h) s hs a s1 h1

theorem lengthHintPy_issues (h : ReliesPy X.W s0) {w : Val} : IssuesPy X s0 (lengthHintPy X w) := by
  have K := same1_keeps h
  unfold lengthHintPy
  refine .bind (.tryCatch (.bind (.perform K _) fun v => .pure (some v)) (fun _ => .pure _)) fun m => ?_
  cases m with
  | none => exact .pureBasic basic_notImpl
  | some m => exact fun s hs v s' hr => (IssuesPy.perform_fit h hs hr).1

theorem getattrPy_issues (hi : X.impl = .py) (hE : Stock E s0) (h : ReliesPy X.W s0) {id : Nat} {w c : Val} (hk : IsChecker c)
    {n : Name} {inside : Bool} (hc : Careful (.getattr n inside)) :
    IssuesPy X s0 (getattrPy X (hasattrX X) id w c n inside) := by
  have K := same1_keeps h
  have KH : ∀ o n, Pres (Same1 s0) (hasattrX X o n) := fun _ _ => .hasattrX K _ _
  refine .tryCatch (.getattributePy K KH _ _ _ _ _) ?_ fun _ => ?_
  · unfold getattributePy
    by_cases hb : (n = "_wrapped" ∨ n = "_checker") ∧ inside = false
    · rw [if_pos hb]; exact .throw _
    · rw [if_neg hb]
      have hwk : n ≠ "_wrapped" ∧ n ≠ "_checker" := by
        cases inside with
        | true => exact hc rfl
        | false => exact ⟨fun e => hb ⟨.inl e, rfl⟩, fun e => hb ⟨.inr e, rfl⟩⟩
      refine .state fun s hs => ?_
      have hchk : IsChecker (proxyChecker X s id c) := by rw [(untouched_slots hs.2 id w c).2]; exact hk
      simp only [if_neg hwk.1, if_neg hwk.2]
      refine .bind ?_ fun _ => ?_
      · exact .ite (.pure _) (.chkCheck K KH _ _ _ _)
      · split
        · exact .perform h fun _ hv => .proxy hi hE h hchk hv
        · exact .bind .get fun _ => .perform h fun _ hv => .proxy hi hE h hchk hv
  · exact .state fun _ _ => .bind (.chkCheck K KH _ _ _ _) fun _ => .throw _

theorem popPy_issues (hi : X.impl = .py) (hE : Stock E s0) (hX : ReliesPy X.W s0) (id : Nat) (w c : Val)
    (hp : Issued X.W s0.reg (.proxy id w c)) (op : POp) (ha : ∀ a ∈ opArgs op, Issued X.W s0.reg a) (hcare : Careful op) :
    IssuesPy X s0 (popPy X id w c op) := by
  have K := same1_keeps hX
  have hpa : ArgOK (.proxy id w c) := issued_argOK hp
  have hc : IsChecker c := hpa _ _ _ rfl
  have harg : ∀ a ∈ opArgs op, ArgOK a := fun a h => issued_argOK (ha a h)
  cases op with
  | getattr n b => exact getattrPy_issues hi hE hX hc hcare
  | setattr n v =>
    show IssuesPy X s0 (setattrPy X id w c n v)
    unfold setattrPy
    rw [if_neg hcare.1, if_neg hcare.2]
    exact .bind .get fun _ => .bind (.guard K _ _ _ _) fun _ => .perform hX fun _ _ => .pureBasic basic_none
  | delattr n =>
    show IssuesPy X s0 (delattrPy X id w c n)
    unfold delattrPy
    split
    · exact .throw _
    · exact .bind .get fun _ => .bind (.guard K _ _ _ _) fun _ => .perform hX fun _ _ => .pureBasic basic_none
  | unop u => unfold popPy; exact checkNamePy_issues hi hE hX hc
  | call args => unfold popPy; exact checkNamePy_issues hi hE hX hc
  | getitem k => unfold popPy; exact checkNamePy_issues hi hE hX hc
  | setitem k v => unfold popPy; exact checkNameNonePy_issues hX
  | delitem k => unfold popPy; exact checkNameNonePy_issues hX
  | contains v =>
    exact .bind .get fun _ => .bind (.guard K _ _ _ _) fun _ => .bind .get fun _ => .perform hX fun _ _ =>
      .bind (.chkProxy K _ _) fun _ => .pureBasic (basic_bool _)
  | len =>
    exact .bind .get fun _ => .bind (.guard K _ _ _ _) fun _ => .bind .get fun _ => .perform hX fun _ _ =>
      .basic fun _ _ _ h => asLen_ok h
  | iter => unfold popPy; exact checkNamePy_issues hi hE hX hc
  | next => unfold popPy; exact checkNamePy_issues hi hE hX hc
  | binL b o => exact binPy_issues hi hE hX b hpa (harg o (by simp [opArgs]))
  | binR b o => exact binPy_issues hi hE hX b (harg o (by simp [opArgs])) hpa
  | pow y m => exact powPy_issues hi hE hX hpa (harg y (by simp [opArgs]))
  | rpow x m => exact powPy_issues hi hE hX (harg x (by simp [opArgs])) hpa
  | pow3 x y => exact powPy_issues hi hE hX (harg x (by simp [opArgs])) (harg y (by simp [opArgs]))
  | inplace b o => exact absurd hcare (fun h => h)
  | compare b o =>
    refine .state fun s hs => ?_
    exact fun s hs v s' hr => (IssuesPy.perform_fit hX hs hr).1
  | hash => exact .bind .get fun _ => .perform hX fun _ _ => .basic fun _ _ _ h => asInt_ok h
  | bool => exact .bind .get fun _ => .perform hX fun _ _ => .pureBasic (basic_bool _)
  | lengthHint => exact .bind .get fun _ => lengthHintPy_issues hX
  | str => exact strPy_issues hi hE hX hc
  | repr => exact strPy_issues hi hE hX hc

theorem pop_issuesPy (hi : X.impl = .py) (hE : Stock E s0) (hX : ReliesPy X.W s0) (p : Val)
    (hp : Issued X.W s0.reg p) (op : POp) (ha : ∀ a ∈ opArgs op, Issued X.W s0.reg a) (hcare : Careful op) :
    IssuesPy X s0 (pop X p op) := by
  unfold pop
  split
  · rw [hi]; exact popPy_issues hi hE hX _ _ _ hp op ha hcare
  · exact .throw _

theorem careful_repoints {impl : Impl} {op : POp} (h : Careful op) : ¬ Repoints impl op := by
  rintro ⟨_, ⟨b, o, rfl⟩ | ⟨v, rfl⟩ | ⟨v, rfl⟩⟩
  · exact h
  · exact h.1 rfl
  · exact h.2 rfl

/-- Throughout a session the declarations stay what they are, no slot is assigned, and the code holds
only proxies that are the registry's. -/
theorem sessionPy_issued (hi : X.impl = .py) (hE : Stock E s0) (hX : ReliesPy X.W s0) {s s' : St A} {held held' : List Val}
    (hs : Same1 s0 s) (h0 : ∀ v ∈ held, Issued X.W s0.reg v) (h : SessionPy X (s, held) (s', held')) :
    Same1 s0 s' ∧ ∀ v ∈ held', Issued X.W s0.reg v := by
  generalize ha : (s, held) = a at h
  generalize hb : (s', held') = b at h
  induction h generalizing s' held' with
  | nil => subst ha; cases hb; exact ⟨hs, h0⟩
  | @cons b c _ hm ih =>
    subst hb
    obtain ⟨sb, hb⟩ := b
    obtain ⟨i1, i2⟩ := ih rfl
    have keep : ∀ p op, Careful op → Same1 s0 (pop X p op sb).2 := fun p op hc =>
      Pres.pop (same1_keeps hX) p op (fun h => absurd h (careful_repoints hc)) sb i1
    cases hm with
    | @returns _ _ p op v _ hp hcare harg hr =>
      refine ⟨by have := keep p op hcare; rwa [hr] at this, ?_⟩
      intro e he
      rcases List.mem_cons.mp he with rfl | he
      · exact pop_issuesPy hi hE hX p (i2 _ hp) op (fun a ha => i2 a (harg a ha)) hcare _ i1 _ _ hr
      · exact i2 e he
    | @raises _ _ p op _ _ hp hcare harg hr => exact ⟨by have := keep p op hcare; rwa [hr] at this, i2⟩
    | constant hb =>
      refine ⟨i1, fun e he => ?_⟩
      rcases List.mem_cons.mp he with rfl | he
      · exact issued_basic hb
      · exact i2 e he
    | elsewhere h1 h2 h3 => exact ⟨⟨h1.trans i1.1, fun id => by rw [h2, h3]; exact i1.2 id⟩, i2⟩

end

/-! ## Checks and declarations -/

theorem undeclared_py (d : PyDict Name Val) (n : Name) : Undeclared .py d n ↔ ∀ p, d.get? n = some p → p = .none := by
  unfold Undeclared Declared
  constructor
  · intro h p hp
    exact Classical.byContradiction fun hne => h p ⟨hp, fun _ => hne⟩
  · rintro h p ⟨hp, hne⟩
    exact hne rfl (h p hp)

theorem declared_py (d : PyDict Name Val) (n : Name) (p : Val) : Declared .py d n p ↔ d.get? n = some p ∧ p ≠ .none := by
  simp [Declared]

theorem lacksIter_iff {X : Ctx A} (hi : X.impl = .py) {w : Val} (hw : ¬ IsProxy w) (s : St A) :
    (hasattrX X w "__iter__" s).1 = .ok false ↔ LacksIter X.W s w := by
  have hrun : hasattrX X w "__iter__" s = hasattrOf X (probe X (.getattr w "__iter__")) s := by
    unfold hasattrX
    cases w with
    | proxy i u c => exact absurd ⟨_, _, _, rfl⟩ hw
    | _ => cases X.depth <;> rfl
  rw [hrun]
  unfold hasattrOf LacksIter
  rcases ha : X.W.apply (.getattr w "__iter__") { s with trace := s.trace ++ [.probed (.getattr w "__iter__")] } with ⟨r, s1⟩
  have hp : probe X (.getattr w "__iter__") s = (r, { s1 with trace := s.trace ++ [.probed (.getattr w "__iter__")] }) := by
    unfold probe
    simp only [ha]
  rw [hp, hi]
  cases r with
  | ok v => simp
  | diverge => simp
  | err e =>
    by_cases he : e.isAttr = true
    · simp [he]
    · simp [he]

/-- A check with the registry's checker grants exactly what the declarations and the interaction
permit. -/
theorem check_permitsPy {E : Ext} {X : Ctx A} {s0 s : St A} (hi : X.impl = .py) (hE : Stock E s0) (hs : Same1 s0 s) {w c : Val}
    (hw : ¬ IsProxy w) (ha : Assigned X.W s0.reg w c) (k : CheckKind) (n : Name) :
    (chkCheck X (hasattrX X) k c w n s).1 = .ok () ↔ PermitsPy X (storeOf s0) s w (isWrite k) n := by
  obtain ⟨i, g, st, rfl, hst, hg⟩ := assigned_dicts hE ha
  have hs := hs.1
  simp only [protection, Prod.mk.injEq] at hs
  obtain ⟨_, hd, hav⟩ := hs
  have hav : s.avail = availableByDefault := hav.trans hE.avail
  have hpub : publicV ≠ .none := by decide
  by_cases hk : k = .setattr
  · subst hk
    rw [C02_write_granted_iff]
    simp only [hi, declared_py, hd, hst]
    constructor
    · rintro (h | ⟨p, ix, s', h1, h2, h3, h4⟩)
      · exact .isPublic h.1
      · exact .granted h1.1 h1.2 h2 h3 h4
    · intro h
      cases h with
      | isPublic h => exact .inl ⟨h, hpub⟩
      | granted h1 h2 h3 h4 h5 => exact .inr ⟨_, _, _, ⟨h1, h2⟩, h3, h4, h5⟩
      | byDefault h => cases h
      | noIter h => cases h
  · have hwr : isWrite k = false := by cases k <;> first | rfl | exact absurd rfl hk
    rw [C01_granted_iff X _ k hk, hwr]
    have hlack := lacksIter_iff hi hw s
    simp only [hi, declared_py, undeclared_py, hd]
    have havail : ∀ n, Available .py s.avail n ↔ n ∈ availableByDefault := by
      intro n; simp [Available, hav]
    simp only [havail]
    rcases hg n with hg | ⟨rfl, hnone, hp⟩
    · simp only [hg]
      constructor
      · rintro (h | ⟨p, ix, s', h1, h2, h3, h4⟩ | ⟨h1, h2⟩ | ⟨h1, _, rfl, h3⟩)
        · exact .isPublic h.1
        · exact .granted h1.1 h1.2 h2 h3 h4
        · exact .byDefault rfl h1 h2
        · exact .noIter rfl h1 rfl (hlack.mp h3)
      · intro h
        cases h with
        | isPublic h => exact .inl ⟨h, hpub⟩
        | granted h1 h2 h3 h4 h5 => exact .inr (.inl ⟨_, _, _, ⟨h1, h2⟩, h3, h4, h5⟩)
        | byDefault _ h1 h2 => exact .inr (.inr (.inl ⟨h1, h2⟩))
        | noIter _ h1 h2 h3 =>
          subst h2
          exact .inr (.inr (.inr ⟨h1, by decide, rfl, hlack.mpr h3⟩))
    · constructor
      · intro _
        exact .byDefault rfl (fun p h => by rw [hnone] at h; cases h) (by decide)
      · intro _
        exact .inl ⟨hp, hpub⟩

theorem need_actor_memPy (p : Val) (op : POp) (q : Need) (hq : need .py p op = some q) : q.actor = p ∨ q.actor ∈ opArgs op := by
  cases op with
  | getattr n b =>
    simp only [need] at hq
    split at hq
    · cases hq
    · split at hq <;> cases hq <;> exact .inl rfl
  | binR b o =>
    simp only [need] at hq
    split at hq <;> cases hq <;> simp [opArgs]
  | rpow x m =>
    simp only [need] at hq
    split at hq <;> cases hq <;> simp [opArgs]
  | pow3 x y =>
    simp only [need] at hq
    split at hq
    · cases hq; simp [opArgs]
    · split at hq <;> cases hq <;> simp [opArgs]
  | compare b o => cases hq
  | hash => cases hq
  | bool => cases hq
  | lengthHint => cases hq
  | _ => cases hq; exact .inl rfl

/-- What may be carried out for untrusted code, whatever made the declarations. -/
theorem stock_permittedPy {E : Ext} {s0 : St A} (hE : Stock E s0) {X : Ctx A} (hi : X.impl = .py) (hX : ReliesPy X.W s0)
    {start : St A} {held : List Val} {s : St A} {held' : List Val} (hst : protection start = protection s0) (hun : Untouched start)
    (hh : ∀ v ∈ held, Issued X.W s0.reg v) (hses : SessionPy X (start, held) (s, held')) (p : Val) (hp : p ∈ held')
    (hpp : IsProxy p) (op : POp) (harg : ∀ v ∈ opArgs op, v ∈ held') :
    NewEvents s (pop X p op s).2 (Only (PermittedPy X (storeOf s0) s p op)) := by
  obtain ⟨hs, hiss⟩ := sessionPy_issued hi hE hX ⟨hst, hun⟩ hh hses
  have hnot : ∀ id, NotRepointed X.W id := fun id r s => ⟨by rw [(hX.slots r s).1], by rw [(hX.slots r s).2]⟩
  have hcurr : ∀ i w c, current .py s (.proxy i w c) = some (w, c) := by
    intro i w c
    simp only [current, (hs.2 i).1, (hs.2 i).2, Option.getD_none]
  refine (C13_mediation_py X hi hnot p hpp op s).mono (only_mono fun ro hro => ?_)
  unfold Allowed at hro
  unfold PermittedPy
  rw [hi] at hro
  cases hq : need .py p op with
  | none =>
    rw [hq] at hro
    obtain ⟨i, w, c, rfl⟩ := hpp
    obtain ⟨w', c', hcur, hfree⟩ := hro
    rw [hcurr] at hcur
    cases hcur
    exact ⟨i, w, c, rfl, hfree⟩
  | some q =>
    rw [hq] at hro
    obtain ⟨w, c, hcur, hro⟩ := hro
    obtain ⟨i, w', c', hact⟩ := need_actor _ p hpp op q hq
    rw [hact, hcurr] at hcur
    cases hcur
    have hq' : q.actor ∈ held' := by
      rcases need_actor_memPy p op q hq with h | h
      · rw [h]; exact hp
      · exact harg _ h
    obtain ⟨hw, hass⟩ := hiss _ hq' i w c hact
    rcases hro with ⟨_, ⟨_, _, _, hn⟩, _⟩ | ⟨hcar, s1, hchk⟩
    · exact absurd ⟨_, _, _, hn⟩ hw
    · exact ⟨i, w, c, hact, hcar, (check_permitsPy hi hE hs hw hass _ _).mp (by rw [hchk])⟩

/-! ## What is permitted is carried out -/

/-- Running `x` in `s` carries out `ro`. -/
def Does (s : St A) (x : M A Val) (ro : RawOp) : Prop := ∃ es, (x s).2.trace = s.trace ++ es ∧ .performed ro ∈ es

/-- Running `x` only adds to the trace. -/
abbrev Extends {α : Type} (x : M A α) : Prop := Adds (fun _ => True) x

theorem only_extends {α : Type} {P : RawOp → Prop} {x : M A α} (h : Adds (Only P) x) : Extends x := h.mono fun _ _ => trivial

theorem Does.perform {X : Ctx A} {s : St A} {ro : RawOp} {f : Val → M A Val} (hf : ∀ v, Extends (f v)) :
    Does s (perform X ro >>= f) ro := by
  have hp : (ZS.perform X ro s).2.trace = s.trace ++ [.performed ro] := by unfold ZS.perform; rfl
  unfold Does
  rw [run_bind]
  rcases hr : ZS.perform X ro s with ⟨r, s1⟩
  rw [hr] at hp
  simp only at hp
  cases r with
  | ok v =>
    obtain ⟨es, h1, _⟩ := hf v s1
    refine ⟨.performed ro :: es, ?_, by simp⟩
    simp only
    rw [h1, hp]
    simp
  | err e => exact ⟨[.performed ro], hp, by simp⟩
  | diverge => exact ⟨[.performed ro], hp, by simp⟩

theorem Does.tryCatch {s : St A} {x : M A Val} {p : Exn → Bool} {g : Exn → M A Val} {ro : RawOp} (hx : Does s x ro)
    (hg : ∀ e, Extends (g e)) : Does s (M.tryCatch x p g) ro := by
  obtain ⟨es, h1, h2⟩ := hx
  unfold Does
  rw [run_tryCatch]
  rcases hr : x s with ⟨r, s1⟩
  rw [hr] at h1
  simp only at h1
  cases r with
  | ok v => exact ⟨es, h1, h2⟩
  | diverge => exact ⟨es, h1, h2⟩
  | err e =>
    simp only
    split
    · obtain ⟨es', h3, _⟩ := hg e s1
      exact ⟨es ++ es', by rw [h3, h1]; simp, by simp [h2]⟩
    · exact ⟨es, h1, h2⟩

theorem Does.bind {s : St A} {x : M A Val} {f : Val → M A Val} {ro : RawOp} (hx : Does s x ro) (hf : ∀ v, Extends (f v)) :
    Does s (x >>= f) ro := by
  obtain ⟨es, h1, h2⟩ := hx
  unfold Does
  rw [run_bind]
  rcases hr : x s with ⟨r, s1⟩
  rw [hr] at h1
  simp only at h1
  cases r with
  | ok v =>
    obtain ⟨es', h3, _⟩ := hf v s1
    exact ⟨es ++ es', by simp only; rw [h3, h1]; simp, by simp [h2]⟩
  | diverge => exact ⟨es, h1, h2⟩
  | err e => exact ⟨es, h1, h2⟩

section
variable {E : Ext} {X : Ctx A} {s0 : St A}

theorem Does.granted (h : ReliesPy X.W s0) {k : CheckKind} {c w : Val} {n : Name} {s : St A} {g : Unit → M A Val} {ro : RawOp}
    (hs : Same1 s0 s) (hchk : (chkCheck X (hasattrX X) k c w n s).1 = .ok ()) (hg : ∀ s1, Same1 s0 s1 → Does s1 (g ()) ro) :
    Does s (chkCheck X (hasattrX X) k c w n >>= g) ro := by
  have K := same1_keeps h
  have hp := Pres.chkCheck (H := hasattrX X) K (fun _ _ => .hasattrX K _ _) k c w n s hs
  obtain ⟨es1, ha1, _⟩ := check_adds X k c w n s
  unfold Does
  rw [run_bind]
  rcases hr : chkCheck X (hasattrX X) k c w n s with ⟨r, s1⟩
  rw [hr] at hchk hp ha1
  simp only at hchk hp ha1
  subst hchk
  obtain ⟨es, h1, h2⟩ := hg s1 hp
  exact ⟨es1 ++ es, by simp only; rw [h1, ha1]; simp, by simp [h2]⟩

theorem chkProxy_extends (c v : Val) : Extends (chkProxy X c v) := .chkProxy (fun _ => trivial) _ _

theorem Does.checkNamePy (h : ReliesPy X.W s0) {id : Nat} {w c : Val} {n : Name} {r : Val → RawOp} {s : St A}
    (hs : Same1 s0 s) (hchk : (chkCheck X (hasattrX X) .check c w n s).1 = .ok ()) :
    Does s (checkNamePy X id w c n r) (r w) := by
  have e := untouched_slots (X := X) hs.2 id w c
  show Does s (chkCheck X (hasattrX X) .check (proxyChecker X s id c) (proxyWrapped X s id w) n >>= fun _ => M.get >>= fun s1 =>
    ZS.perform X (r (proxyWrapped X s1 id w)) >>= fun v => chkProxy X (proxyChecker X s id c) v) (r w)
  rw [e.1, e.2]
  refine Does.granted h hs hchk fun s1 hs1 => ?_
  show Does s1 (ZS.perform X (r (proxyWrapped X s1 id w)) >>= _) (r w)
  rw [(untouched_slots (X := X) hs1.2 id w c).1]
  exact Does.perform fun v => chkProxy_extends _ _

/-- A checked operation whose check grants is carried out. -/
theorem popPy_does (hi : X.impl = .py) (h : ReliesPy X.W s0) (p : Val) (hp : IsProxy p) (op : POp) (hd : Direct op) (q : Need)
    (hq : need .py p op = some q) {s : St A} (hs : Same1 s0 s) (i : Nat) (w c : Val) (ha : q.actor = .proxy i w c)
    (hchk : (chkCheck X (hasattrX X) q.kind c w q.name s).1 = .ok ()) : Does s (pop X p op) (q.carry w) := by
  have simple : q.kind = .check → Does s (checkNamePy X i w c q.name q.carry) (q.carry w) := by
    intro hk
    rw [hk] at hchk
    exact .checkNamePy h hs hchk
  have e := untouched_slots (X := X) hs.2 i w c
  obtain ⟨id, pw, pc, rfl⟩ := hp
  rw [pop_py hi]
  cases op with
  | compare => simp [need] at hq
  | hash => simp [need] at hq
  | bool => simp [need] at hq
  | lengthHint => simp [need] at hq
  | inplace => exact absurd hd (fun h => h)
  | getattr n b =>
    refine .tryCatch ?_ fun _ => ?_
    · unfold getattributePy
      rw [if_neg (by intro h; rcases h.1 with h | h; exact hd.1 h; exact hd.2 h)]
      show Does s (if n = "_wrapped" then _ else _) _
      rw [if_neg hd.1, if_neg hd.2]
      by_cases hf : n ∈ freeAttrs
      · simp only [need, if_pos hf] at hq; cases hq
      have hf' : n ∉ pyUncheckedAttrs := hf
      simp only [need, if_neg hf] at hq
      unfold getattributeCheckPy
      rw [if_neg hf']
      by_cases hr : n = "__reduce__" ∨ n = "__reduce_ex__" ∨ n = "__module__"
      · rw [if_pos hr] at hq
        cases hq; cases ha
        rw [e.1, e.2]
        refine .granted h hs hchk fun s1 hs1 => ?_
        rw [if_pos hr]
        exact .perform fun v => chkProxy_extends _ _
      · rw [if_neg hr] at hq
        cases hq; cases ha
        rw [e.1, e.2]
        refine .granted h hs hchk fun s1 hs1 => ?_
        rw [if_neg hr]
        show Does s1 (ZS.perform X (.baseGetattr (proxyWrapped X s1 i w) n) >>= _) _
        rw [(untouched_slots (X := X) hs1.2 i w c).1]
        exact .perform fun v => chkProxy_extends _ _
    · refine .bind .get fun _ => .bind (only_extends (check_adds X _ _ _ _)) fun _ => .throw _
  | setattr n v =>
    simp only [need] at hq
    cases hq; cases ha
    simp only [popPy, setattrPy]
    rw [if_neg hd.1, if_neg hd.2]
    show Does s (chkCheck X (hasattrX X) .setattr (proxyChecker X s i c) (proxyWrapped X s i w) n >>= fun _ =>
      ZS.perform X (.setattr (proxyWrapped X s i w) n v) >>= fun _ => pure .none) _
    rw [e.1, e.2]
    exact .granted h hs hchk fun s1 hs1 => .perform fun _ => .pure _
  | delattr n =>
    simp only [need] at hq
    cases hq; cases ha
    simp only [popPy, delattrPy]
    rw [if_neg (by intro h; rcases h with h | h; exact hd.1 h; exact hd.2 h)]
    show Does s (chkCheck X (hasattrX X) .setattr (proxyChecker X s i c) (proxyWrapped X s i w) n >>= fun _ =>
      ZS.perform X (.delattr (proxyWrapped X s i w) n) >>= fun _ => pure .none) _
    rw [e.1, e.2]
    exact .granted h hs hchk fun s1 hs1 => .perform fun _ => .pure _
  | contains v =>
    simp only [need] at hq
    cases hq; cases ha
    show Does s (chkCheck X (hasattrX X) .check (proxyChecker X s i c) (proxyWrapped X s i w) "__contains__" >>= _) _
    rw [e.1, e.2]
    refine .granted h hs hchk fun s1 hs1 => ?_
    show Does s1 (ZS.perform X (.special "__contains__" (proxyWrapped X s1 i w) [v]) >>= _) _
    rw [(untouched_slots (X := X) hs1.2 i w c).1]
    exact .perform fun v => .bind (chkProxy_extends _ _) fun _ => .pure _
  | len =>
    simp only [need] at hq
    cases hq; cases ha
    show Does s (chkCheck X (hasattrX X) .check (proxyChecker X s i c) (proxyWrapped X s i w) "__len__" >>= _) _
    rw [e.1, e.2]
    refine .granted h hs hchk fun s1 hs1 => ?_
    show Does s1 (ZS.perform X (.special "__len__" (proxyWrapped X s1 i w) []) >>= _) _
    rw [(untouched_slots (X := X) hs1.2 i w c).1]
    refine .perform fun v => ?_
    unfold asLen
    split
    · split
      · exact .pure _
      · exact .throw _
    · exact .throw _
  | setitem k v =>
    simp only [need] at hq
    cases hq; cases ha
    show Does s (chkCheck X (hasattrX X) .check (proxyChecker X s i c) (proxyWrapped X s i w) "__setitem__" >>= _) _
    rw [e.1, e.2]
    refine .granted h hs hchk fun s1 hs1 => ?_
    show Does s1 (ZS.perform X (.special "__setitem__" (proxyWrapped X s1 i w) [k, v]) >>= _) _
    rw [(untouched_slots (X := X) hs1.2 i w c).1]
    exact .perform fun v => .bind (chkProxy_extends _ _) fun _ => .pure _
  | delitem k =>
    simp only [need] at hq
    cases hq; cases ha
    show Does s (chkCheck X (hasattrX X) .check (proxyChecker X s i c) (proxyWrapped X s i w) "__delitem__" >>= _) _
    rw [e.1, e.2]
    refine .granted h hs hchk fun s1 hs1 => ?_
    show Does s1 (ZS.perform X (.special "__delitem__" (proxyWrapped X s1 i w) [k]) >>= _) _
    rw [(untouched_slots (X := X) hs1.2 i w c).1]
    exact .perform fun v => .bind (chkProxy_extends _ _) fun _ => .pure _
  | str =>
    simp only [need] at hq
    cases hq; cases ha
    exact .bind (.tryCatch (simple rfl) fun _ => .bind .get fun _ => only_extends (defaultReprPy_adds X (fun _ => True) _))
      fun v => asStr_adds X _ v
  | repr =>
    simp only [need] at hq
    cases hq; cases ha
    exact .bind (.tryCatch (simple rfl) fun _ => .bind .get fun _ => only_extends (defaultReprPy_adds X (fun _ => True) _))
      fun v => asStr_adds X _ v
  | unop u =>
    simp only [need, unNames_eq] at hq
    cases hq; cases ha
    exact simple rfl
  | binL b o =>
    simp only [need, binNames_eq] at hq
    cases hq; cases ha
    exact simple rfl
  | binR b o =>
    simp only [need, binNames_eq] at hq
    split at hq
    · cases hq
      cases o <;> simp only [reduceCtorEq] at ha
      cases ha
      exact simple rfl
    · next ho =>
      cases hq; cases ha
      cases o <;> first | exact simple rfl | exact absurd rfl ho
  | rpow x m =>
    simp only [need] at hq
    split at hq
    · cases hq
      cases x <;> simp only [reduceCtorEq] at ha
      cases ha
      exact simple rfl
    · next ho =>
      cases hq; cases ha
      cases x <;> first | exact simple rfl | exact absurd rfl ho
  | pow3 x y =>
    simp only [need] at hq
    split at hq
    · cases hq
      cases x <;> simp only [reduceCtorEq] at ha
      cases ha
      exact simple rfl
    · next ho =>
      split at hq
      · cases hq
        cases y <;> simp only [reduceCtorEq] at ha
        cases ha
        cases x <;> first | exact simple rfl | exact absurd rfl ho
      · next ho2 => exact absurd hd (by simp [Direct, ho, ho2])
  | _ =>
    simp only [need] at hq
    cases hq; cases ha
    exact simple rfl

end

/-- What is permitted is carried out, whatever made the declarations. -/
theorem stock_carried_outPy {E : Ext} {s0 : St A} (hE : Stock E s0) {X : Ctx A} (hi : X.impl = .py) (hX : ReliesPy X.W s0)
    {start : St A} {held : List Val} {s : St A} {held' : List Val} (hst : protection start = protection s0) (hun : Untouched start)
    (hh : ∀ v ∈ held, Issued X.W s0.reg v) (hses : SessionPy X (start, held) (s, held')) (p : Val) (hp : p ∈ held')
    (hpp : IsProxy p) (op : POp) (harg : ∀ v ∈ opArgs op, v ∈ held') (q : Need) (hq : need .py p op = some q) (hd : Direct op)
    (i : Nat) (w c : Val) (hact : q.actor = .proxy i w c) (hper : PermitsPy X (storeOf s0) s w (isWrite q.kind) q.name) :
    ∃ es, (pop X p op s).2.trace = s.trace ++ es ∧ .performed (q.carry w) ∈ es := by
  obtain ⟨hs, hiss⟩ := sessionPy_issued hi hE hX ⟨hst, hun⟩ hh hses
  have hq' : q.actor ∈ held' := by
    rcases need_actor_memPy p op q hq with h | h
    · rw [h]; exact hp
    · exact harg _ h
  obtain ⟨hw, hass⟩ := hiss _ hq' i w c hact
  exact popPy_does hi hX p hpp op hd q hq hs i w c hact ((check_permitsPy hi hE hs hw hass q.kind q.name).mpr hper)

/-! ## The claims -/

/-- **C72** The package is imported in pure Python, a configuration is carried out, and an application
that relies on it hands out proxies made by the registry.  Then whatever untrusted code does with
them, except for in-place operators, assigning the two private slots and reading these from within a
method of a proxy, for as long as it likes and with whatever else going on but changes of the
declarations and assignments to these slots: every operation carried out for it on an application
object is one of the unchecked ones, or what it asked for on that object, under a name that the
directives of the configuration make public, or require a permission for that the interaction at
that moment granted on the object, or leave alone and the package makes available by default.  The
last operation may be any. -/
theorem C72_configured (E : Ext) (a : A) (l : List Directive) (hr : Ready l (initial E a))
    (hl : ∀ d ∈ l, ∀ e, ¬ Raises d e) :
    ∃ s0, configure l (initial E a) = (.ok (), s0) ∧ ∃ σ, Effects l (storeOf (initial E a)) σ ∧
      (∀ τ, Effects l (storeOf (initial E a)) τ → τ = σ) ∧
      ∀ X : Ctx A, X.impl = .py → ReliesPy X.W s0 → ∀ start held s held', protection start = protection s0 → Untouched start →
        (∀ v ∈ held, Issued X.W s0.reg v) → SessionPy X (start, held) (s, held') →
        ∀ p ∈ held', IsProxy p → ∀ op, (∀ v ∈ opArgs op, v ∈ held') →
          NewEvents s (pop X p op s).2 (Only (PermittedPy X σ s p op)) := by
  obtain ⟨s0, h1, h2, _, _⟩ := C38_effects l (initial E a) (heap_initial E a) hr hl
  have hE : Stock E s0 := by
    have := stock_configure (E := E) l (initial E a) (stock_initial E a)
    rwa [h1] at this
  exact ⟨s0, h1, storeOf s0, h2, fun _ h => effects_unique h h2,
    fun X hi hX start held s held' hst hun hh hses p hp hpp op harg =>
      stock_permittedPy hE hi hX hst hun hh hses p hp hpp op harg⟩

/-- **C72** Conversely what the declarations and the interaction permit is carried out, conversions to
strings included. -/
theorem C72_carried_out (E : Ext) (a : A) (l : List Directive) (hr : Ready l (initial E a))
    (hl : ∀ d ∈ l, ∀ e, ¬ Raises d e) :
    ∃ s0, configure l (initial E a) = (.ok (), s0) ∧ ∃ σ, Effects l (storeOf (initial E a)) σ ∧
      (∀ τ, Effects l (storeOf (initial E a)) τ → τ = σ) ∧
      ∀ X : Ctx A, X.impl = .py → ReliesPy X.W s0 → ∀ start held s held', protection start = protection s0 → Untouched start →
        (∀ v ∈ held, Issued X.W s0.reg v) → SessionPy X (start, held) (s, held') →
        ∀ p ∈ held', IsProxy p → ∀ op, (∀ v ∈ opArgs op, v ∈ held') →
          ∀ q, need .py p op = some q → Direct op →
            ∀ i w c, q.actor = .proxy i w c → PermitsPy X σ s w (isWrite q.kind) q.name →
              ∃ es, (pop X p op s).2.trace = s.trace ++ es ∧ .performed (q.carry w) ∈ es := by
  obtain ⟨s0, h1, h2, _, _⟩ := C38_effects l (initial E a) (heap_initial E a) hr hl
  have hE : Stock E s0 := by
    have := stock_configure (E := E) l (initial E a) (stock_initial E a)
    rwa [h1] at this
  exact ⟨s0, h1, storeOf s0, h2, fun _ h => effects_unique h h2,
    fun X hi hX start held s held' hst hun hh hses p hp hpp op harg q hq hd i w c hact hper =>
      stock_carried_outPy hE hi hX hst hun hh hses p hp hpp op harg q hq hd i w c hact hper⟩

/-- **C72** Permitted means the same with both kinds of proxies, unless a permission of `None` is
declared for the name, or the name is `__iter__` and looking it up raises something else than an
AttributeError. -/
theorem C72_same (X : Ctx A) (σ : Store) (s : St A) (w : Val) (write : Bool) (n : Name)
    (hn : σ (keyOf X.W w) write n ≠ some .none) (hit : n = "__iter__" → NoIter X.W s w → LacksIter X.W s w) :
    PermitsPy X σ s w write n ↔ Permits X σ s w write n := by
  have hnone : write = false → (∀ p, σ (keyOf X.W w) false n = some p → p = .none) → σ (keyOf X.W w) false n = none := by
    rintro rfl h
    cases hq : σ (keyOf X.W w) false n with
    | none => rfl
    | some p => rw [h p hq] at hq; exact absurd hq hn
  constructor
  · intro h
    cases h with
    | isPublic h => exact .isPublic h
    | granted h1 _ h3 h4 h5 => exact .granted h1 h3 h4 h5
    | byDefault h1 h2 h3 => exact .byDefault h1 (hnone h1 h2) h3
    | noIter h1 h2 h3 h4 =>
      obtain ⟨e, s', _, h⟩ := h4
      exact .noIter h1 (hnone h1 h2) h3 ⟨e, s', h⟩
  · intro h
    have undecl : σ (keyOf X.W w) false n = none → ∀ p, σ (keyOf X.W w) false n = some p → p = .none := by
      intro h p hp; rw [h] at hp; cases hp
    cases h with
    | isPublic h => exact .isPublic h
    | granted h1 h3 h4 h5 =>
      refine .granted h1 ?_ h3 h4 h5
      rintro rfl
      exact hn h1
    | byDefault h1 h2 h3 => exact .byDefault h1 (undecl h2) h3
    | noIter h1 h2 h3 h4 => exact .noIter h1 (undecl h2) h3 (hit h3 h4)

/-- **C72** The last directive with anything to say about reading or writing the name of a class
decides: if it requires a permission, the name is permitted on an object of the class only if that
permission is `zope.Public` or the interaction grants it on that object. -/
theorem C72_last (X : Ctx A) (l l1 l2 : List Directive) (σ0 σ : Store) (h : Effects l σ0 σ) (d : Directive) (write : Bool)
    (n : Name) (p : Val) (hl : l = l1 ++ d :: l2) (hd : Declares d write n p) (hp : p ≠ .none)
    (hlast : ∀ d' ∈ l2, Silent d' (about d) write n) (s : St A) (w : Val) (hw : keyOf X.W w = about d) :
    PermitsPy X σ s w write n ↔
      p = publicV ∨ (∃ z, p = .str z "zope.Public") ∨
        ∃ ix s', (s.threads X.tid).interaction = some ix ∧ IxAnswer X.W s p w ix (.ok true) s' := by
  rw [hl] at h
  obtain ⟨σ1, _, h3⟩ := Effects.split h
  have hm : Means p (σ (keyOf X.W w) write n) := by
    cases h3 with
    | cons h4 h5 =>
      rw [hw, Effects.silent h5 hlast]
      exact h4.declared write n p hd hp
  have hsome : ∃ q, σ (keyOf X.W w) write n = some q ∧ q ≠ .none := by
    generalize σ (keyOf X.W w) write n = q at hm
    cases hm with
    | isPublic z => exact ⟨_, rfl, by decide⟩
    | isNone => exact absurd rfl hp
    | other => exact ⟨_, rfl, hp⟩
  obtain ⟨q, hq, hqn⟩ := hsome
  refine Iff.trans ?_ (permits_declared hp hm)
  constructor
  · intro h
    cases h with
    | isPublic h => exact .isPublic h
    | granted h1 _ h3 h4 h5 => exact .granted h1 h3 h4 h5
    | byDefault h1 h2 => subst h1; exact absurd (h2 q hq) hqn
    | noIter h1 h2 => subst h1; exact absurd (h2 q hq) hqn
  · intro h
    cases h with
    | isPublic h => exact .isPublic h
    | granted h1 h3 h4 h5 => rw [hq] at h1; cases h1; exact .granted hq hqn h3 h4 h5
    | byDefault h1 h2 => subst h1; rw [hq] at h2; cases h2
    | noIter h1 h2 => subst h1; rw [hq] at h2; cases h2

/-- **C72** ... and what no directive says anything about on a class the package does not know is
permitted only for reading, and only if it is available by default or an `__iter__` that is not
there. -/
theorem C72_undeclared (X : Ctx A) (E : Ext) (a : A) (l : List Directive) (σ : Store)
    (h : Effects l (storeOf (initial E a)) σ) (w : Val) (write : Bool) (n : Name)
    (hk : (initial E a).reg.get? (keyOf X.W w) = none) (hs : ∀ d ∈ l, Silent d (keyOf X.W w) write n) (s : St A) :
    PermitsPy X σ s w write n ↔ write = false ∧ (n ∈ availableByDefault ∨ (n = "__iter__" ∧ LacksIter X.W s w)) := by
  have hnone : σ (keyOf X.W w) write n = none := by
    rw [Effects.silent h hs]
    simp [storeOf, stored, hk]
  constructor
  · intro hper
    cases hper with
    | isPublic h => rw [hnone] at h; cases h
    | granted h => rw [hnone] at h; cases h
    | byDefault hwr _ hn => exact ⟨hwr, .inl hn⟩
    | noIter hwr _ hn hit => exact ⟨hwr, .inr ⟨hn, hit⟩⟩
  · rintro ⟨rfl, hn | ⟨hn, hit⟩⟩
    · exact .byDefault rfl (fun p hp => by rw [hnone] at hp; cases hp) hn
    · exact .noIter rfl (fun p hp => by rw [hnone] at hp; cases hp) hn hit

/-! ## A case -/

namespace Shop

theorem reliesPy (s : St Unit) : ReliesPy Ex.W s where
  toRelies := relies s
  slots := by
    intro r s
    simp only [Ex.W]
    split <;> exact ⟨rfl, rfl⟩

theorem untouched : Untouched now := fun _ => ⟨rfl, rfl⟩

/-- The state after reading `secret`. -/
def s2 : St Unit := (pop (Ex.X .py) thing (.getattr "secret" false) now).2

/-- What reading `secret` gives: a new proxy under the registry's checker. -/
def innerPy : Val := .proxy 103 (.obj 7) (.checker 102 100 101)

theorem step2 : pop (Ex.X .py) thing (.getattr "secret" false) now = (.ok innerPy, s2) := by
  have h : (pop (Ex.X .py) thing (.getattr "secret" false) now).1 = .ok innerPy := rfl
  exact Prod.ext h rfl

/-- A session in which the code obtains a proxy of a further object and then somebody else does
something. -/
theorem sessionPy : SessionPy (Ex.X .py) (now, [thing]) ({ s2 with nextId := 200 }, [innerPy, thing]) :=
  .cons (.cons .nil (.returns (op := .getattr "secret" false) (List.mem_singleton.mpr rfl) (fun h => by cases h)
    (by intro _ h; cases h) step2))
    (.elsewhere rfl rfl rfl)

/-- The hypotheses of the theorems are met; reading `secret` of the object obtained is permitted, as
the interaction grants `view`; the operation is direct. -/
example : Ready config (initial Ex.ext ()) ∧ (∀ d ∈ config, ∀ e, ¬ Raises d e) ∧ ReliesPy Ex.W s0
    ∧ protection now = protection s0 ∧ Untouched now ∧ (∀ v ∈ [thing], Issued Ex.W s0.reg v)
    ∧ IsProxy innerPy ∧ Direct (.getattr "secret" false)
    ∧ need .py innerPy (.getattr "secret" false)
      = some ⟨innerPy, .getattr, "secret", fun w => .baseGetattr w "secret"⟩
    ∧ PermitsPy (Ex.X .py) (storeOf s0) s2 (.obj 7) false "secret"
    ∧ LacksIter Ex.W s2 (.obj 7) := by
  refine ⟨ready, fine, reliesPy s0, rfl, untouched, issued, ⟨_, _, _, rfl⟩, ⟨by decide, by decide⟩, ?_, ?_, ?_⟩
  · simp [need, freeAttrs]
  · exact .granted (perm := Ex.view) (by decide) (by decide) (by decide) rfl (.foreign (fun _ h => (nomatch h)) rfl rfl)
  · exact ⟨_, _, rfl, rfl⟩

/-- What happens: `secret` is read while the interaction grants `view` and not without; setting it is
refused all the same. -/
example : (pop (Ex.X .py) thing (.getattr "secret" false) now).2.trace
      = [.probed (.method (.obj 50) "checkPermission" [Ex.view, .obj 1]), .performed (.baseGetattr (.obj 1) "secret"),
         .probed (.getattr (.obj 7) "__Security_checker__")]
    ∧ (pop (Ex.X .py) thing (.getattr "secret" false) s0).2.trace = []
    ∧ (pop (Ex.X .py) thing (.setattr "secret" (.int 0)) now).1 = .err (.forbidden "secret" (.obj 1)) := by
  refine ⟨rfl, rfl, rfl⟩

/-- A declared `None` makes the difference of `C72_same`: the pure-Python checker does not see it and
makes `__name__` available, the compiled one asks for a permission `None`, which without an interaction
is not granted. -/
example : PermitsPy (Ex.X .py) (fun _ _ _ => some .none) s0 (.obj 1) false "__name__"
    ∧ ¬ Permits (Ex.X .py) (fun _ _ _ => some .none) s0 (.obj 1) false "__name__" := by
  refine ⟨.byDefault rfl (fun p h => (Option.some.inj h).symm) (by decide), fun h => ?_⟩
  cases h with
  | isPublic h => exact absurd h (by decide)
  | granted _ _ h => cases h
  | byDefault _ h => cases h
  | noIter _ h => cases h

end Shop

/-- **C72** Each of the exceptions is needed.  An in-place operation leaves the result under the checker
of the old object (`C66_py`); reading a slot from within a method of a proxy gives the bare object or
its checker, and assigning one changes what is checked or what checks, all without any check: here the
code replaces the checker of a proxy by an object that grants everything. -/
theorem C72_slots :
    (∃ s', pop (Ex.X .py) Shop.thing (.getattr "_wrapped" true) Shop.s0 = (.ok (.obj 1), s'))
    ∧ (∃ s', pop (Ex.X .py) Shop.thing (.getattr "_checker" true) Shop.s0 = (.ok (.checker 102 100 101), s'))
    ∧ (pop (Ex.X .py) Shop.thing (.delattr "z") Shop.s0).1 = .err (.forbidden "z" (.obj 1))
    ∧ ∃ s1 s2, pop (Ex.X .py) Shop.thing (.setattr "_checker" (.obj 8)) Shop.s0 = (.ok .none, s1)
      ∧ pop (Ex.X .py) Shop.thing (.delattr "z") s1 = (.ok .none, s2)
      ∧ .performed (.delattr (.obj 1) "z") ∈ s2.trace :=
  ⟨⟨_, rfl⟩, ⟨_, rfl⟩, rfl, _, _, rfl, rfl, by decide⟩

end ZS.Props
