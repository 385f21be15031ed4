import Verif.Props.Ops

/-!
# C19 Compiled and pure-Python proxies behave alike
-/

namespace ZS.Props
open Spec
variable {A : Type}

/-- The same world, thread and bounds with the given implementation. -/
def withImpl (X : Ctx A) (impl : Impl) : Ctx A := { X with impl := impl }

/-- The checked operations on which both implementations are meant to agree.  Left out: comparisons,
in-place operators, texts and length hints (listed exceptions); reading an attribute (see below);
`complex()` and `index()`, which the compiled proxy has no slot for; the private slot names; `pow`
with only the modulus proxied. -/
def Alike : POp → Prop
  | .getattr .. | .compare .. | .inplace .. | .str | .repr | .lengthHint | .hash | .bool => False
  | .unop u => u ≠ .complex ∧ u ≠ .index
  | .setattr n _ | .delattr n => n ≠ "_wrapped" ∧ n ≠ "_checker"
  | .pow3 x y => x.isProxy = true ∨ y.isProxy = true
  | _ => True

theorem need_alike (p : Val) (op : POp) (hop : Alike op) (q : Need) (hq : need .c p op = some q) :
    ∃ q', need .py p op = some q' ∧ q'.actor = q.actor ∧ q'.name = q.name ∧ q'.carry = q.carry
      ∧ (q'.kind = .setattr ↔ q.kind = .setattr) := by
  cases op with
  | next => simp only [need] at hq; cases hq; exact ⟨_, rfl, rfl, rfl, rfl, by simp⟩
  | getattr n b => exact absurd hop id
  | _ => exact ⟨q, hq, rfl, rfl, rfl, Iff.rfl⟩

/-- Reading the wrapped object again after the check makes no difference. -/
theorem reread (X : Ctx A) (ia : Nat) (w c : Val) (h : NotRepointed X.W ia) (n : Name) (ro : Val → RawOp) (g : Val → M A Val) (s : St A) :
    (chkCheck X (hasattrX X) .check c w n >>= fun _ => M.get >>= fun s1 =>
      perform X (ro (proxyWrapped X s1 ia w)) >>= g) s
    = (chkCheck X (hasattrX X) .check c w n >>= fun _ => perform X (ro (proxyWrapped X s ia w)) >>= g) s := by
  rw [run_bind, run_bind]
  rcases hs : chkCheck X (hasattrX X) .check c w n s with ⟨res, s1⟩
  have hk := check_keeps h .check c w n s
  rw [hs] at hk
  have hw : proxyWrapped X s1 ia w = proxyWrapped X s ia w := by unfold proxyWrapped; rw [hk.1]
  cases res with
  | ok a =>
    show (perform X (ro (proxyWrapped X s1 ia w)) >>= _) s1 = _
    rw [hw]
  | err e => rfl
  | diverge => rfl

/-- **C19** Both implementations give the same outcome and the same final state, for every operation
of the list above, provided they agree on the check and on protecting the value actually
returned; in pure Python the proxy must not have been re-pointed, and `None` and truth values
must need no protection. -/
theorem C19_agree (X : Ctx A) (hW : ∀ id, NotRepointed X.W id) (p : Val) (hp : IsProxy p) (op : POp) (hop : Alike op)
    (q q' : Need) (hq : need .c p op = some q) (hq' : need .py p op = some q') (ia : Nat) (w c : Val) (ha : q.actor = .proxy ia w c)
    (s : St A) (hov : s.ovW ia = none ∧ s.ovC ia = none)
    (hcheck : chkCheck (withImpl X .c) (hasattrX (withImpl X .c)) q.kind c w q.name s
      = chkCheck (withImpl X .py) (hasattrX (withImpl X .py)) q'.kind c w q.name s)
    (hproxy : ∀ s1 v s2, chkCheck (withImpl X .c) (hasattrX (withImpl X .c)) q.kind c w q.name s = (.ok (), s1) →
      perform X (q.carry w) s1 = (.ok v, s2) → chkProxy (withImpl X .c) c v s2 = chkProxy (withImpl X .py) c v s2)
    (hconst : ∀ v s, (v = .none ∨ ∃ b, v = .bool b) → chkProxy (withImpl X .py) c v s = (.ok v, s)) :
    pop (withImpl X .c) p op s = pop (withImpl X .py) p op s := by
  obtain ⟨q2, hq2, e1, e2, e3, _⟩ := need_alike p op hop q hq
  rw [hq'] at hq2
  cases hq2
  have hslot : ¬ NoSlot .c op := by
    rintro ⟨_, rfl | rfl⟩
    · exact hop.1 rfl
    · exact hop.2 rfl
  have hstr : op ≠ .str := by rintro rfl; exact hop
  have hrepr : op ≠ .repr := by rintro rfl; exact hop
  rw [C13_exact_c (withImpl X .c) rfl p hp op q hq ia w c ha hslot hstr hrepr s]
  have hcur : current .py s q'.actor = some (w, c) := by
    rw [e1, ha]; simp [current, hov.1, hov.2]
  have hpw : proxyWrapped (withImpl X .py) s ia w = w := by simp [proxyWrapped, withImpl, hov.1]
  have hpc : proxyChecker (withImpl X .py) s ia c = c := by simp [proxyChecker, withImpl, hov.2]
  -- both sides after the check
  have tail : ∀ (f g : Val → M A Val),
      (∀ s1 v s2, chkCheck (withImpl X .c) (hasattrX (withImpl X .c)) q.kind c w q.name s = (.ok (), s1) →
        perform X (q.carry w) s1 = (.ok v, s2) → f v s2 = g v s2) →
      (do chkCheck (withImpl X .c) (hasattrX (withImpl X .c)) q.kind c w q.name
          let v ← perform X (q.carry w)
          f v : M A Val) s
      = (do chkCheck (withImpl X .py) (hasattrX (withImpl X .py)) q'.kind c w q'.name
            let v ← perform X (q'.carry w)
            g v : M A Val) s := by
    intro f g hfg
    rw [e2, e3, run_bind, run_bind, ← hcheck]
    rcases hc : chkCheck (withImpl X .c) (hasattrX (withImpl X .c)) q.kind c w q.name s with ⟨r, s1⟩
    cases r with
    | ok _ =>
      simp only [run_bind]
      rcases hv : perform X (q.carry w) s1 with ⟨r, s2⟩
      cases r with
      | ok v => exact hfg s1 v s2 hc hv
      | err e => rfl
      | diverge => rfl
    | err e => rfl
    | diverge => rfl
  by_cases hpl : Plain .py op
  · have := C13_exact (withImpl X .py) (fun _ => hW) p hp op hpl q' hq' s w c hcur
    rw [this]
    refine tail (deliver (withImpl X .c) p w c op) (chkProxy (withImpl X .py) c) fun s1 v s2 h1 h2 => ?_
    rw [← hproxy s1 v s2 h1 h2]
    cases op <;> first | rfl | exact absurd hpl id
  · have none_tail : ∀ (n : Name) (ro : Val → RawOp), q'.name = n → q'.carry = ro → q'.kind = .check →
        (∀ v, deliver (withImpl X .c) p w c op v = pure .none) →
        (do chkCheck (withImpl X .c) (hasattrX (withImpl X .c)) q.kind c w q.name
            let v ← perform X (q.carry w)
            deliver (withImpl X .c) p w c op v : M A Val) s
          = checkNameNonePy (withImpl X .py) ia w c n ro s := by
      intro n ro h1 h2 h3 hd
      have hlhs := tail (deliver (withImpl X .c) p w c op) (fun _ => chkProxy (withImpl X .py) c .none >>= fun _ => pure .none)
        (fun s1 v s2 _ _ => by rw [hd, run_bind, hconst _ _ (.inl rfl)])
      rw [hlhs, h1, h2, h3]
      have := reread (withImpl X .py) ia w c (hW ia) n ro (fun _ => chkProxy (withImpl X .py) c .none >>= fun _ => pure Val.none) s
      rw [hpw] at this
      rw [show checkNameNonePy (withImpl X .py) ia w c n ro s = (chkCheck (withImpl X .py) (hasattrX (withImpl X .py)) .check
        (proxyChecker (withImpl X .py) s ia c) (proxyWrapped (withImpl X .py) s ia w) n >>= fun _ => M.get >>= fun s1 =>
          perform (withImpl X .py) (ro (proxyWrapped (withImpl X .py) s1 ia w)) >>= fun _ =>
          chkProxy (withImpl X .py) (proxyChecker (withImpl X .py) s ia c) .none >>= fun _ => pure Val.none) s from rfl, hpw, hpc]
      exact this.symm
    obtain ⟨id, pw, pc, rfl⟩ := hp
    cases op with
    | setattr n v =>
      simp only [need] at hq hq'
      cases hq; cases hq'; cases ha
      rw [C15_exact (withImpl X .py) _ _ n _ (.set n v) (fun _ => hop) s w c hcur]
      exact tail (deliver (withImpl X .c) _ w c (.setattr n v)) (fun _ => pure .none) fun _ _ _ _ _ => rfl
    | delattr n =>
      simp only [need] at hq hq'
      cases hq; cases hq'; cases ha
      rw [C15_exact (withImpl X .py) _ _ n _ (.del n) (fun _ => hop) s w c hcur]
      exact tail (deliver (withImpl X .c) _ w c (.delattr n)) (fun _ => pure .none) fun _ _ _ _ _ => rfl
    | setitem k v =>
      simp only [need] at hq hq'
      cases hq; cases hq'; cases ha
      exact none_tail _ _ rfl rfl rfl fun _ => rfl
    | delitem k =>
      simp only [need] at hq hq'
      cases hq; cases hq'; cases ha
      exact none_tail _ _ rfl rfl rfl fun _ => rfl
    | contains v =>
      simp only [need] at hq hq'
      cases hq; cases hq'; cases ha
      have hlhs := tail (deliver (withImpl X .c) (.proxy ia w c) w c (.contains v))
        (fun r => chkProxy (withImpl X .py) c (.bool (truthy X.W r)) >>= fun _ => pure (.bool (truthy X.W r)))
        (fun s1 r s2 _ _ => by rw [run_bind, hconst _ _ (.inr ⟨_, rfl⟩)]; rfl)
      refine hlhs.trans ?_
      have := reread (withImpl X .py) ia w c (hW ia) "__contains__" (fun w => .special "__contains__" w [v])
        (fun r => chkProxy (withImpl X .py) c (.bool (truthy X.W r)) >>= fun _ => pure (Val.bool (truthy X.W r))) s
      rw [hpw] at this
      rw [show pop (withImpl X .py) (.proxy ia w c) (.contains v) s = (chkCheck (withImpl X .py) (hasattrX (withImpl X .py)) .check
        (proxyChecker (withImpl X .py) s ia c) (proxyWrapped (withImpl X .py) s ia w) "__contains__" >>= fun _ => M.get >>= fun s1 =>
          perform (withImpl X .py) (.special "__contains__" (proxyWrapped (withImpl X .py) s1 ia w) [v]) >>= fun r =>
          chkProxy (withImpl X .py) (proxyChecker (withImpl X .py) s ia c) (.bool (truthy X.W r)) >>= fun _ =>
          pure (Val.bool (truthy X.W r))) s from rfl, hpw, hpc]
      exact this.symm
    | len =>
      simp only [need] at hq hq'
      cases hq; cases hq'; cases ha
      have hlhs := tail (deliver (withImpl X .c) (.proxy ia w c) w c .len) asLen
        (fun s1 r s2 _ _ => by cases r <;> rfl)
      refine hlhs.trans ?_
      have := reread (withImpl X .py) ia w c (hW ia) "__len__" (fun w => .special "__len__" w []) asLen s
      rw [hpw] at this
      rw [show pop (withImpl X .py) (.proxy ia w c) .len s = (chkCheck (withImpl X .py) (hasattrX (withImpl X .py)) .check
        (proxyChecker (withImpl X .py) s ia c) (proxyWrapped (withImpl X .py) s ia w) "__len__" >>= fun _ => M.get >>= fun s1 =>
          perform (withImpl X .py) (.special "__len__" (proxyWrapped (withImpl X .py) s1 ia w) []) >>= asLen) s from rfl, hpw, hpc]
      exact this.symm
    | unop u => exact absurd (by simp [Plain]) hpl
    | pow3 x y => exact absurd (fun _ => hop) hpl
    | call a => exact absurd trivial hpl
    | getitem a => exact absurd trivial hpl
    | iter => exact absurd trivial hpl
    | next => exact absurd trivial hpl
    | binL b o => exact absurd trivial hpl
    | binR b o => exact absurd trivial hpl
    | pow b o => exact absurd trivial hpl
    | rpow b o => exact absurd trivial hpl
    | _ => exact absurd hop _root_.id

/-- **C19** `hash()` and `bool()` are unchecked in both and agree. -/
theorem C19_unchecked (X : Ctx A) (id : Nat) (w c : Val) (op : POp) (hop : op = .hash ∨ op = .bool) (s : St A)
    (hov : s.ovW id = none) :
    pop (withImpl X .c) (.proxy id w c) op s = pop (withImpl X .py) (.proxy id w c) op s := by
  have hpw : proxyWrapped (withImpl X .py) s id w = w := by simp [proxyWrapped, withImpl, hov]
  rcases hop with rfl | rfl
  · show (perform X (.special "__hash__" w []) >>= fun r => asInt r) s
      = (perform X (.special "__hash__" (proxyWrapped (withImpl X .py) s id w) []) >>= fun r => asInt r) s
    rw [hpw]
  · show (perform X (.special "__bool__" w []) >>= fun r => pure (Val.bool (truthy X.W r))) s
      = (perform X (.special "__bool__" (proxyWrapped (withImpl X .py) s id w) []) >>= fun r => pure (Val.bool (truthy X.W r))) s
    rw [hpw]

/-- What agreement of the checks needs about the state: no `None` is stored as a permission for the
name, and if the name is available by default it begins with two underscores. -/
def Sane (n : Name) (s : St A) : Prop :=
  (∀ k, (s.dicts k).get? n ≠ some .none) ∧ (n ∈ s.avail → ∃ rest, n = "__" ++ rest)

theorem requirePerm_impl (X : Ctx A) (o : Val) (n : Name) (p : Val) :
    requirePerm (withImpl X .c) o n p = requirePerm (withImpl X .py) o n p := rfl

theorem plainCheck_agree (X : Ctx A) (H H' : Val → Name → M A Bool) (g : Nat) (o : Val) (n : Name) (hn : n ≠ "__iter__")
    (s : St A) (hs : Sane n s) :
    plainCheck (withImpl X .c) H g o n s = plainCheck (withImpl X .py) H' g o n s := by
  show plainCheckC (withImpl X .c) H g o n s = plainCheckPy (withImpl X .py) H' g o n s
  rw [plainCheckC_eq, plainCheckPy_eq]
  have hl : lookupPy (s.dicts g) n = (s.dicts g).get? n := by
    unfold lookupPy
    have := hs.1 g
    split
    · next h => exact absurd h this
    · rfl
  rw [hl]
  cases (s.dicts g).get? n with
  | some p => rfl
  | none =>
    simp only
    by_cases ha : n ∈ s.avail
    · have : isDunder n = true := (isDunder_iff n).mpr (hs.2 ha)
      simp [this, ha]
    · by_cases hd : isDunder n = true
      · simp [hd, ha, hn]
      · simp [hd, ha, hn]

theorem plainSetattr_agree (X : Ctx A) (st : Nat) (o : Val) (n : Name) (s : St A) (hs : Sane n s) :
    plainSetattr (withImpl X .c) st o n s = plainSetattr (withImpl X .py) st o n s := by
  have hspec := (plainSetattr_spec (withImpl X .py) st o n s _).mp rfl
  rw [plainSetattr_spec]
  generalize plainSetattr (withImpl X .py) st o n s = r at hspec
  cases hspec with
  | declared h1 h2 =>
    refine .declared ⟨h1.1, fun h => by cases h⟩ ?_
    rw [← requirePerm_spec] at h2 ⊢
    exact h2
  | forbidden h =>
    refine .forbidden fun p hp => h p ⟨hp.1, fun _ h0 => ?_⟩
    subst h0
    exact hs.1 st hp.1

/-- **C19** The hypothesis on checks holds for ordinary checkers, for every name but `__iter__`. -/
theorem C19_checks_agree (X : Ctx A) (n : Name) (hK : Keeps (Sane n) X.W) (hn : n ≠ "__iter__") (H H' : Val → Name → M A Bool)
    (hH : ∀ o n', Pres (Sane n) (H o n')) (c : Val) (hc : Ordinary c)
    (k k' : CheckKind) (hk : k' = .setattr ↔ k = .setattr) (o : Val) (s : St A) (hs : Sane n s) :
    chkCheck (withImpl X .c) H k c o n s = chkCheck (withImpl X .py) H' k' c o n s := by
  have hcomb : ∀ (x x' y y' : M A Unit) (s : St A), Sane n s → x s = x' s → Pres (Sane n) x → (∀ s, Sane n s → y s = y' s) →
      combine x y s = combine x' y' s := by
    intro x x' y y' s hs hx hp hy
    unfold combine
    rw [← hx]
    have h1 := hp s hs
    rcases h : x s with ⟨r, s1⟩
    rw [h] at h1
    cases r with
    | ok _ => rfl
    | diverge => rfl
    | err e =>
      simp only
      split
      · exact hy s1 h1
      · split
        · rw [run_tryCatch, run_tryCatch, hy s1 h1]
        · rfl
  induction c generalizing k k' s with
  | checker id g st =>
    cases k <;> cases k' <;> simp only [chkCheck] <;> first
      | exact plainCheck_agree X H H' g o n hn s hs
      | exact plainSetattr_agree X st o n s hs
      | simp at hk
  | combined id g st c2 ih =>
    have hpr := Pres.plainCheck (X := withImpl X .c) hK hH g o n
    have hps := Pres.plainSetattr (X := withImpl X .c) hK st o n
    cases k <;> cases k' <;> simp only [chkCheck] <;> first
      | exact hcomb _ _ _ _ s hs (plainCheck_agree X H H' g o n hn s hs) hpr fun s hs => ih hc _ _ Iff.rfl s hs
      | exact hcomb _ _ _ _ s hs (plainSetattr_agree X st o n s hs) hps fun s hs => ih hc _ _ Iff.rfl s hs
      | simp at hk
  | _ => exact absurd hc _root_.id

theorem selectLoop_impl (X : Ctx A) (i : Impl) (o : Val) (k : Nat) (c : Val) : selectLoop (withImpl X i) o k c = selectLoop X o k c := by
  induction k generalizing c with
  | zero => rfl
  | succ k ih =>
    show (if c.isChecker = true then pure c else callFactory X c o >>= fun c' =>
        if c' = .noProxy ∨ c' = .none then pure .none else selectLoop (withImpl X i) o k c' : M A Val)
      = (if c.isChecker = true then pure c else callFactory X c o >>= fun c' =>
        if c' = .noProxy ∨ c' = .none then pure .none else selectLoop X o k c' : M A Val)
    simp only [ih]

/-- **C19** The hypothesis on protecting a result holds for the package's checkers when looking for the
value's own `__Security_checker__` gives a checker or an `AttributeError`, and the value is not an
exception without a registered checker. -/
theorem C19_proxies_agree (X : Ctx A) (c v : Val) (hc : c.isChecker = true) (s : St A)
    (hd : ∀ i k u, v ≠ .deco i k u)
    (hsc : ∀ r s1, getSC X v s = (r, s1) → (∃ e, r = .err e ∧ e.isAttr = true) ∨ (∃ k, r = .ok k ∧ k ≠ .none) ∨ r = .diverge)
    (hexc : ∀ e s1, getSC X v s = (.err e, s1) → ¬ (regEntry X.W s1 v = defaultChecker ∧ X.W.isExc v = true)) :
    chkProxy (withImpl X .c) c v s = chkProxy (withImpl X .py) c v s := by
  have e1 : chkProxy (withImpl X .c) c v = proxyC (withImpl X .c) v := if_pos hc
  have e2 : chkProxy (withImpl X .py) c v = proxyPy (withImpl X .py) v := if_pos hc
  rw [e1, e2]
  by_cases hv : v.isProxy = true
  · rw [show proxyC (withImpl X .c) v = pure v from if_pos hv, show proxyPy (withImpl X .py) v = pure v from if_pos hv]
  have gc : getSC (withImpl X .c) v s = getSC X v s := by
    cases v <;> first | rfl | exact absurd rfl (hd _ _ _)
  have gp : getSC (withImpl X .py) v s = getSC X v s := by
    cases v <;> first | rfl | exact absurd rfl (hd _ _ _)
  rw [show proxyC (withImpl X .c) v s = _ from congrFun (if_neg hv) s,
    show proxyPy (withImpl X .py) v s = _ from congrFun (if_neg hv) s]
  rw [gc, run_bind]
  unfold orNone
  rw [run_tryCatch, gp]
  rcases hg : getSC X v s with ⟨r, s1⟩
  rcases hsc r s1 hg with ⟨e, rfl, he⟩ | ⟨k, rfl, hk⟩ | rfl
  · simp only [he, if_true]
    show _ = (if Val.none = Val.none then (do
      let c ← selectChecker (withImpl X .py) v
      if c = .none then pure v else newProxy v c) else newProxy v .none : M A Val) s1
    rw [if_pos rfl, run_bind, run_bind]
    have : selectChecker (withImpl X .c) v s1 = selectChecker (withImpl X .py) v s1 := by
      show (if regEntry X.W s1 v = .noProxy then pure .none
        else if regEntry X.W s1 v = defaultChecker ∧ X.W.isExc v = true then pure .none
        else selectLoop (withImpl X .c) v X.fuel (regEntry X.W s1 v) : M A Val) s1
        = (if regEntry X.W s1 v = .noProxy then pure .none else selectLoop (withImpl X .py) v X.fuel (regEntry X.W s1 v) : M A Val) s1
      rw [if_neg (hexc e s1 hg), selectLoop_impl, selectLoop_impl]
    rw [this]
  · simp only
    rw [if_neg hk, run_ite, if_neg hk]
  · rfl

/-- **C19** The hypothesis on constants holds as long as `NoneType` and `bool` are registered as needing
no protection. -/
theorem C19_constants (X : Ctx A) (c v : Val) (hc : c.isChecker = true) (s : St A) (hv : v = .none ∨ ∃ b, v = .bool b)
    (hreg : s.reg.get? (.ty "NoneType") = some .noProxy ∧ s.reg.get? (.ty "bool") = some .noProxy) :
    chkProxy (withImpl X .py) c v s = (.ok v, s) := by
  rw [show chkProxy (withImpl X .py) c v = proxyPy (withImpl X .py) v from if_pos hc]
  have sel : selectChecker (withImpl X .py) v s = (.ok .none, s) := by
    have : regEntry X.W s v = .noProxy := by
      unfold regEntry
      rcases hv with rfl | ⟨b, rfl⟩
      · rw [show typeOf X.W .none = "NoneType" from rfl, hreg.1]; rfl
      · rw [show typeOf X.W (.bool b) = "bool" from rfl, hreg.2]; rfl
    show (if regEntry X.W s v = .noProxy then pure .none else _ : M A Val) s = _
    rw [if_pos this]; rfl
  have : proxyPy (withImpl X .py) v s = (selectChecker (withImpl X .py) v >>= fun c =>
      if c = .none then pure v else newProxy v c) s := by
    rcases hv with rfl | ⟨b, rfl⟩ <;> rfl
  rw [this, bind_ok sel]
  rfl

/-- **C19** Reading an attribute: after the same check, the compiled proxy evaluates `getattr(obj, name)`
and the pure-Python one `getattr` as inherited by the proxy base class — the same value unless
the proxy class itself defines the name — and both protect the result with the same checker; as
long as the check and the lookup do not raise an `AttributeError`. -/
theorem C19_getattr (X : Ctx A) (hW : ∀ id, NotRepointed X.W id) (id : Nat) (w c : Val) (n : Name) (inside : Bool) (s : St A)
    (hov : s.ovW id = none ∧ s.ovC id = none) (hn : n ∉ freeAttrs)
    (hn2 : n ≠ "_wrapped" ∧ n ≠ "_checker" ∧ n ≠ "__reduce__" ∧ n ≠ "__reduce_ex__" ∧ n ≠ "__module__")
    (s1 s2 s3 s4 : St A) (v v' u : Val)
    (hcheck : chkCheck (withImpl X .c) (hasattrX (withImpl X .c)) .getattr c w n s = (.ok (), s1))
    (hcheck' : chkCheck (withImpl X .py) (hasattrX (withImpl X .py)) .getattr c w n s = (.ok (), s1))
    (hv : perform X (.getattr w n) s1 = (.ok v, s2)) (hv' : perform X (.baseGetattr w n) s1 = (.ok v', s3))
    (hu : chkProxy (withImpl X .py) c v' s3 = (.ok u, s4)) :
    pop (withImpl X .c) (.proxy id w c) (.getattr n inside) s = chkProxy (withImpl X .c) c v s2
    ∧ pop (withImpl X .py) (.proxy id w c) (.getattr n inside) s = chkProxy (withImpl X .py) c v' s3 := by
  constructor
  · show (chkCheck (withImpl X .c) (hasattrX (withImpl X .c)) .getattr c w n >>= fun _ => perform X (.getattr w n) >>= fun r =>
      chkProxy (withImpl X .c) c r) s = _
    rw [bind_ok hcheck, bind_ok hv]
  · have hpw : proxyWrapped (withImpl X .py) s id w = w := by simp [proxyWrapped, withImpl, hov.1]
    have hpc : proxyChecker (withImpl X .py) s id c = c := by simp [proxyChecker, withImpl, hov.2]
    have hk := check_keeps (X := withImpl X .py) (hW id) .getattr c w n s
    rw [hcheck'] at hk
    have hpw1 : proxyWrapped (withImpl X .py) s1 id w = w := by
      have h1 : s1.ovW id = none := hk.1.trans hov.1
      simp [proxyWrapped, withImpl, h1]
    have hun : n ∉ pyUncheckedAttrs := hn
    have first : getattributePy (withImpl X .py) (hasattrX (withImpl X .py)) id w c n inside s = (.ok u, s4) := by
      unfold getattributePy
      rw [run_ite, if_neg (by simp [hn2])]
      show (if n = "_wrapped" then pure _ else if n = "_checker" then pure _ else _ : M A Val) s = _
      rw [run_ite, if_neg hn2.1, run_ite, if_neg hn2.2.1]
      unfold getattributeCheckPy
      rw [if_neg hun, hpw, hpc, bind_ok hcheck', run_ite, if_neg (by simp [hn2])]
      show (perform X (.baseGetattr (proxyWrapped (withImpl X .py) s1 id w) n) >>= fun v => chkProxy (withImpl X .py) c v) s1 = _
      rw [hpw1, bind_ok hv', hu]
    show M.tryCatch (getattributePy (withImpl X .py) (hasattrX (withImpl X .py)) id w c n inside) Exn.isAttr _ s = _
    rw [run_tryCatch, first, hu]

/-- Everything together on concrete objects: `p[1]` with a public `__getitem__`. -/
example :
    let s := { Ex.s1 none with dicts := fun k => if k = 30 then [("__getitem__", publicV)] else [] }
    Sane "__getitem__" s ∧ Ordinary Ex.c1 ∧ Ex.c1.isChecker = true ∧ Alike (.getitem (.int 1))
    ∧ pop (withImpl (Ex.X .c) .c) (.proxy 70 (.obj 1) Ex.c1) (.getitem (.int 1)) s
      = pop (withImpl (Ex.X .c) .py) (.proxy 70 (.obj 1) Ex.c1) (.getitem (.int 1)) s
    ∧ (pop (Ex.X .py) (.proxy 70 (.obj 1) Ex.c1) (.getitem (.int 1)) s).1 = .ok (.proxy 100 (.obj 7) (.checker 1 2 3)) := by
  refine ⟨⟨fun k => ?_, fun _ => ⟨"getitem__", by decide⟩⟩, trivial, rfl, trivial, rfl, rfl⟩
  by_cases h : k = 30
  · subst h; decide
  · simp [h]

/-- **C19** Listed exceptions: `==` on an object whose comparison returns an object, and `+=`, differ. -/
theorem C19_exceptions : ∃ (X : Ctx Unit) (s : St Unit) (p : Val), IsProxy p ∧
    (pop (withImpl X .c) p (.compare .eq (.int 1)) s).1 ≠ (pop (withImpl X .py) p (.compare .eq (.int 1)) s).1 ∧
    (pop (withImpl X .c) p (.inplace .iadd (.int 1)) s).2.ovW 70 ≠ (pop (withImpl X .py) p (.inplace .iadd (.int 1)) s).2.ovW 70 := by
  refine ⟨Ex.X .c, { Ex.s1 none with dicts := fun k => if k = 30 then [("__iadd__", publicV)] else (Ex.s1 none).dicts k },
    .proxy 70 (.obj 1) Ex.c1, ⟨_, _, _, rfl⟩, by decide, by decide⟩

end ZS.Props
