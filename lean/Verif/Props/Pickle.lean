import Verif.Model.Pickle
import Verif.Props.Deploy
import Verif.Props.Defaults

/-!
# C70: pickling
-/

namespace ZS.Props
open Spec
variable {A : Type}

/-- The names the pickler asks for, which both implementations read from the wrapped object itself. -/
def pickleNames : List Name := ["__reduce__", "__reduce_ex__", "__module__"]

/-- Reading one of these names from a proxy: ask, read, protect. -/
def readRaw (X : Ctx A) (w c : Val) (n : Name) : M A Val := do
  chkCheck X (hasattrX X) .getattr c w n
  let v ← perform X (.getattr w n)
  chkProxy X c v

theorem hook_not_ok (X : Ctx A) (id : Nat) (w0 c0 : Val) (n : Name) (s : St A) (v : Val) (s' : St A) :
    getattrHookPy X (hasattrX X) id w0 c0 n s ≠ (.ok v, s') := by
  show (chkCheck X (hasattrX X) .getattr (proxyChecker X s id c0) (proxyWrapped X s id w0) n >>= _) s ≠ _
  rw [run_bind]
  rcases chkCheck X (hasattrX X) .getattr (proxyChecker X s id c0) (proxyWrapped X s id w0) n s with ⟨r, s1⟩
  cases r <;> (intro h; cases h)

theorem getattributePy_pickle (X : Ctx A) (hX : X.impl = .py) (id : Nat) (w0 c0 : Val) (n : Name) (hn : n ∈ pickleNames)
    (s : St A) (w c : Val) (hcur : current .py s (.proxy id w0 c0) = some (w, c)) (b : Bool) :
    getattributePy X (hasattrX X) id w0 c0 n b s = readRaw X w c n s := by
  simp only [current, Option.some.injEq, Prod.mk.injEq] at hcur
  have hwc : proxyWrapped X s id w0 = w ∧ proxyChecker X s id c0 = c := by
    simp only [proxyWrapped, proxyChecker, hX]; exact hcur
  have h1 : n ≠ "_wrapped" ∧ n ≠ "_checker" ∧ n ∉ pyUncheckedAttrs := by
    have : ∀ n ∈ pickleNames, n ≠ "_wrapped" ∧ n ≠ "_checker" ∧ n ∉ pyUncheckedAttrs := by decide
    exact this n hn
  have h2 : n = "__reduce__" ∨ n = "__reduce_ex__" ∨ n = "__module__" := by simpa [pickleNames] using hn
  unfold getattributePy
  rw [run_ite, if_neg (by simp [h1.1, h1.2.1])]
  show (if n = "_wrapped" then pure _ else if n = "_checker" then pure _ else _ : M A Val) s = _
  rw [run_ite, if_neg h1.1, run_ite, if_neg h1.2.1]
  unfold getattributeCheckPy
  rw [if_neg h1.2.2, if_pos h2, hwc.1, hwc.2]
  rfl

/-- Reading succeeds with what `readRaw` gives. -/
theorem pop_pickle_ok (X : Ctx A) (id : Nat) (w0 c0 : Val) (n : Name) (hn : n ∈ pickleNames) (b : Bool)
    (s : St A) (w c : Val) (hcur : current X.impl s (.proxy id w0 c0) = some (w, c)) (v : Val) (s' : St A) :
    pop X (.proxy id w0 c0) (.getattr n b) s = (.ok v, s') ↔ readRaw X w c n s = (.ok v, s') := by
  cases hX : X.impl with
  | c =>
    rw [hX] at hcur
    simp only [current, Option.some.injEq, Prod.mk.injEq] at hcur
    obtain ⟨rfl, rfl⟩ := hcur
    rw [pop_c hX]
    rfl
  | py =>
    rw [hX] at hcur
    rw [pop_py hX]
    show M.tryCatch (getattributePy X (hasattrX X) id w0 c0 n b) Exn.isAttr _ s = _ ↔ _
    rw [run_tryCatch, getattributePy_pickle X hX id w0 c0 n hn s w c hcur b]
    rcases readRaw X w c n s with ⟨r, s1⟩
    cases r with
    | ok a => rfl
    | diverge => rfl
    | err e =>
      show (if e.isAttr = true then _ else _) = _ ↔ _
      split
      · exact ⟨fun h => absurd h (hook_not_ok X id w0 c0 n s1 v s'), fun h => by cases h⟩
      · rfl

/-- A refusal comes out as it is when asking left the state alone. -/
theorem pop_pickle_denied (X : Ctx A) (id : Nat) (w0 c0 : Val) (n : Name) (hn : n ∈ pickleNames) (b : Bool)
    (s : St A) (w c : Val) (hcur : current X.impl s (.proxy id w0 c0) = some (w, c)) (e : Exn)
    (hden : chkCheck X (hasattrX X) .getattr c w n s = (.err e, s)) :
    pop X (.proxy id w0 c0) (.getattr n b) s = (.err e, s) := by
  have hall : ∀ n ∈ pickleNames, n ≠ "_wrapped" ∧ n ≠ "_checker" ∧ n ∉ freeAttrs := by decide
  cases hX : X.impl with
  | c =>
    rw [hX] at hcur
    simp only [current, Option.some.injEq, Prod.mk.injEq] at hcur
    obtain ⟨rfl, rfl⟩ := hcur
    rw [pop_c hX]
    show (chkCheck X (hasattrX X) .getattr c0 w0 n >>= _) s = _
    rw [run_bind, hden]
  | py =>
    rw [hX] at hcur
    exact (C14_denied_getattr_py X hX id w0 c0 n b (hall n hn).2.2 (hall n hn).1 (hall n hn).2.1 s s w c hcur e hden).2.1 rfl

/-! ## What a proxy refuses -/

/-- **C70** If the checker refuses both names with ForbiddenAttribute the pickler gives up; if it refuses the first one
asked for with another exception, that comes out.  In no case has anything been done: the state is the same. -/
theorem C70_refused (X : Ctx A) (K : Pickler) (p : Val) (s : St A) (w c : Val) (hcur : current X.impl s p = some (w, c)) (e : Exn)
    (hex : chkCheck X (hasattrX X) .getattr c w "__reduce_ex__" s = (.err e, s)) :
    (e.isAttr = false → save X K p s = (.err e, s))
    ∧ (e.isAttr = true → ∀ e', chkCheck X (hasattrX X) .getattr c w "__reduce__" s = (.err e', s) →
        save X K p s = if e'.isAttr then (.ok .refused, s) else (.err e', s)) := by
  cases p with
  | proxy id w0 c0 =>
    have h1 := pop_pickle_denied X id w0 c0 "__reduce_ex__" (by decide) false s w c hcur e hex
    have l1 : lookAttr X (.proxy id w0 c0) "__reduce_ex__" s = if e.isAttr then (.ok none, s) else (.err e, s) := by
      unfold lookAttr
      rw [run_tryCatch, run_bind, h1]
      rfl
    constructor
    · intro he
      rw [he] at l1
      unfold save reduceValue
      rw [run_bind, run_bind, l1]
      rfl
    · intro he e' h'
      rw [he] at l1
      have h2 := pop_pickle_denied X id w0 c0 "__reduce__" (by decide) false s w c hcur e' h'
      have l2 : lookAttr X (.proxy id w0 c0) "__reduce__" s = if e'.isAttr then (.ok none, s) else (.err e', s) := by
        unfold lookAttr
        rw [run_tryCatch, run_bind, h2]
        rfl
      unfold save reduceValue
      rw [run_bind, run_bind, l1]
      simp only [if_true]
      rw [run_bind, l2]
      cases e'.isAttr <;> rfl
  | _ => cases X.impl <;> simp [current] at hcur

/-- **C70** So a proxy can be pickled only if its checker declares one of the two names: with the names available by
default as they come, an undeclared proxy is refused and nothing happens. -/
theorem C70_undeclared (X : Ctx A) (K : Pickler) (p : Val) (s : St A) (w : Val) (i g st : Nat)
    (hcur : current X.impl s p = some (w, .checker i g st)) (ha : s.avail = availableByDefault)
    (h1 : Undeclared X.impl (s.dicts g) "__reduce_ex__") (h2 : Undeclared X.impl (s.dicts g) "__reduce__") :
    save X K p s = (.ok .refused, s) := by
  have key : ∀ n, n ∈ ["__reduce_ex__", "__reduce__"] → Undeclared X.impl (s.dicts g) n →
      chkCheck X (hasattrX X) .getattr (.checker i g st) w n s = (.err (.forbidden n w), s) := by
    intro n hn hu
    refine (C01_read_check_table X (hasattrX X) .getattr (by decide) i g st w n s _).mpr (.forbidden hu ?_ ?_)
    · rintro ⟨h, _⟩
      rw [ha] at h
      have : ∀ n ∈ ["__reduce_ex__", "__reduce__"], n ∉ availableByDefault := by decide
      exact this n hn h
    · rintro rfl
      revert hn
      decide
  exact (C70_refused X K p s w _ hcur _ (key _ (by simp) h1)).2 rfl _ (key _ (by simp) h2)

/-! ## CheckerPublic -/

/-- The world in which `CheckerPublic` wraps the `Global` of that name (checker.py:348). -/
abbrev publicWorld (W : World A) (m : Nat) : World A := W.withGlobal 0 m "CheckerPublic" "zope.security.checker"

theorem public_perform (X : Ctx A) (W : World A) (m : Nat) (hX : X.W = publicWorld W m) (r : RawOp) (x : Res Val)
    (h : globalDoes 0 m "CheckerPublic" "zope.security.checker" r = some x) (s : St A) :
    perform X r s = (x, { s with trace := s.trace ++ [.performed r] })
    ∧ probe X r s = (x, { s with trace := s.trace ++ [.probed r] }) := by
  simp only [perform, probe, hX, World.withGlobal, h, and_self]

/-- A string whose type is registered as needing no protection. -/
theorem proxy_str (X : Ctx A) (i g st : Nat) (s : St A) (hstr : s.reg.get? (.ty "str") = some .noProxy) (a : Nat) (t : String) :
    chkProxy X (.checker i g st) (.str a t) s = (.ok (.str a t), s) := by
  refine (C06_proxy_spec X _ _ (.inl ⟨_, _, _, rfl⟩) s _).mpr ?_
  have hs := (C07_direct X (.str a t) s).2.2.1 hstr
  exact .absent (fun ⟨_, _, _, h⟩ => nomatch h) rfl (fun _ => rfl) (.bare hs)

/-- **C70** `CheckerPublic` is pickled by its name, whoever is interacting, and what is read again is `CheckerPublic`
itself - in both implementations and whatever else happened, as long as nobody changed its own declarations, those of
methods and strings, or the names available by default.  Nothing is left behind but a used-up identifier. -/
theorem C70_public (W : World A) (m : Nat) (hm : m ≠ 0) (impl : Impl) (tid fuel depth : Nat) (E : Ext) (a : A) (s : St A) (K : Pickler)
    (hp : PublicIntact E a s) (ho : FreshOv s) (ha : s.avail = availableByDefault)
    (hmeth : s.reg.get? (.ty "method") = some (.checker 3 6 7)) (hcall : s.dicts 6 = (initial E a).dicts 6)
    (hstr : s.reg.get? (.ty "str") = some .noProxy)
    (hK : K.globals "zope.security.checker" "CheckerPublic" = some publicV) :
    ∃ s', save ⟨publicWorld W m, impl, tid, fuel, depth⟩ K publicV s
        = (.ok (.byName "zope.security.checker" "CheckerPublic"), s')
      ∧ K.load (.byName "zope.security.checker" "CheckerPublic") = some publicV
      ∧ ({ s' with trace := s.trace, nextId := s.nextId } : St A) = s := by
  generalize hXe : (⟨publicWorld W m, impl, tid, fuel, depth⟩ : Ctx A) = X
  have hXW : X.W = publicWorld W m := by rw [← hXe]
  have cur : ∀ tr k, current X.impl ({ s with trace := tr, nextId := k } : St A) publicV = some (.obj 0, .checker 0 0 1) := by
    intro tr k
    have h1 := hp.2.2.1
    have h2 := hp.2.2.2
    cases X.impl with
    | c => rfl
    | py =>
      show some ((s.ovW 0).getD _, (s.ovC 0).getD _) = _
      rw [h1, h2]; rfl
  have reads : ∀ tr k n, n = "__reduce__" ∨ n = "__module__" →
      chkCheck X (hasattrX X) .getattr (.checker 0 0 1) (.obj 0) n ({ s with trace := tr, nextId := k } : St A)
        = (.ok (), { s with trace := tr, nextId := k }) := fun tr k n hn =>
    (C48_own_reads X (hasattrX X) E a { s with trace := tr, nextId := k } hp (.obj 0) n).1 (by rcases hn with h | h <;> simp [h])
  -- `__reduce_ex__` is refused
  have l1 : lookAttr X publicV "__reduce_ex__" s = (.ok none, s) := by
    have hf := (C48_own_reads X (hasattrX X) E a s hp (.obj 0) "__reduce_ex__").2 (by decide) (by decide)
      (fun h => absurd h.1 (by rw [ha]; decide)) (by decide)
    have := pop_pickle_denied X 0 (.obj 0) (.checker 0 0 1) "__reduce_ex__" (by decide) false s _ _ (cur s.trace s.nextId) _ hf
    unfold lookAttr
    rw [run_tryCatch, run_bind]
    unfold publicV
    rw [this]
    rfl
  -- `__reduce__` is a protected method
  let tr2 : List Event := s.trace ++ [.performed (.getattr (.obj 0) "__reduce__")] ++ [.probed (.getattr (.obj m) "__Security_checker__")]
  let s2 : St A := { s with trace := tr2, nextId := s.nextId + 1 }
  have l2 : lookAttr X publicV "__reduce__" s = (.ok (some (.proxy s.nextId (.obj m) (.checker 3 6 7))), s2) := by
    have hr : readRaw X (.obj 0) (.checker 0 0 1) "__reduce__" s = (.ok (.proxy s.nextId (.obj m) (.checker 3 6 7)), s2) := by
      unfold readRaw
      rw [run_bind, reads s.trace s.nextId "__reduce__" (.inl rfl)]
      show (perform X _ >>= _) s = _
      rw [run_bind, (public_perform X W m hXW (.getattr (.obj 0) "__reduce__") (.ok (.obj m)) (by simp [globalDoes]) s).1]
      show chkProxy X (.checker 0 0 1) (.obj m) _ = _
      refine (C06_proxy_spec X _ _ (.inl ⟨_, _, _, rfl⟩) _ _).mpr ?_
      refine .absent (fun ⟨_, _, _, h⟩ => nomatch h)
        (public_perform X W m hXW (.getattr (.obj m) "__Security_checker__") (.err (.attributeError "__Security_checker__"))
          (by simp [globalDoes, hm]) _).2 (fun _ => rfl) (.wrap (k := .checker 3 6 7) ((C07_direct X (.obj m) _).1 _ ?_ (.inl ⟨_, _, _, rfl⟩) (by decide)) (by decide) (by rfl))
      have : typeOf X.W (.obj m) = "method" := by rw [hXW]; simp [typeOf, World.withGlobal]
      rw [this]
      exact hmeth
    have := (pop_pickle_ok X 0 (.obj 0) (.checker 0 0 1) "__reduce__" (by decide) false s _ _ (cur s.trace s.nextId) _ _).mpr hr
    unfold lookAttr
    rw [run_tryCatch, run_bind]
    unfold publicV
    rw [this]
    rfl
  -- calling it gives the name
  let s3 : St A := { s2 with trace := tr2 ++ [.performed (.special "__call__" (.obj m) [])] }
  have l3 : callFound X (.proxy s.nextId (.obj m) (.checker 3 6 7)) [] s2 = (.ok (.str 1 "CheckerPublic"), s3) := by
    have hchk : chkCheck X (hasattrX X) .check (.checker 3 6 7) (.obj m) "__call__" s2 = (.ok (), s2) :=
      (public_checker X (hasattrX X) .check (by decide) 3 6 7 callableNames s2 (hcall.trans rfl) (.obj m) "__call__").1 (.inl (by decide))
    have hperf := (public_perform X W m hXW (.special "__call__" (.obj m) []) (.ok (.str 1 "CheckerPublic")) (by simp [globalDoes]) s2).1
    have hpx := proxy_str X 3 6 7 s3 hstr 1 "CheckerPublic"
    show pop X (.proxy s.nextId (.obj m) (.checker 3 6 7)) (.call []) s2 = _
    cases hi : X.impl with
    | c =>
      rw [pop_c hi]
      show (chkCheck X (hasattrX X) .check (.checker 3 6 7) (.obj m) "__call__" >>= _) s2 = _
      rw [run_bind, hchk]
      show (perform X _ >>= _) s2 = _
      rw [run_bind, hperf]
      exact hpx
    | py =>
      have hw : ∀ tr k, proxyWrapped X ({ s with trace := tr, nextId := k } : St A) s.nextId (.obj m) = .obj m := by
        intro tr k
        simp only [proxyWrapped, hi, (ho s.nextId (Nat.le_refl _)).1, Option.getD_none]
      have hc : proxyChecker X s2 s.nextId (.checker 3 6 7) = .checker 3 6 7 := by
        show proxyChecker X ({ s with trace := tr2, nextId := s.nextId + 1 } : St A) s.nextId _ = _
        simp only [proxyChecker, hi, (ho s.nextId (Nat.le_refl _)).2, Option.getD_none]
      rw [pop_py hi]
      show (chkCheck X (hasattrX X) .check (proxyChecker X s2 s.nextId (.checker 3 6 7)) (proxyWrapped X s2 s.nextId (.obj m)) "__call__" >>= _) s2 = _
      rw [hc, hw, run_bind, hchk]
      show (perform X (.special "__call__" (proxyWrapped X s2 s.nextId (.obj m)) []) >>= _) s2 = _
      rw [hw, run_bind, hperf]
      exact hpx
  -- `__module__`
  let s4 : St A := { s3 with trace := s3.trace ++ [.performed (.getattr (.obj 0) "__module__")] }
  have l4 : lookAttr X publicV "__module__" s3 = (.ok (some (.str 2 "zope.security.checker")), s4) := by
    have hr : readRaw X (.obj 0) (.checker 0 0 1) "__module__" s3 = (.ok (.str 2 "zope.security.checker"), s4) := by
      unfold readRaw
      rw [run_bind, reads _ _ "__module__" (.inr rfl)]
      show (perform X _ >>= _) s3 = _
      rw [run_bind, (public_perform X W m hXW (.getattr (.obj 0) "__module__") (.ok (.str 2 "zope.security.checker")) (by simp [globalDoes]) s3).1]
      exact proxy_str X 0 0 1 s4 hstr 2 "zope.security.checker"
    have := (pop_pickle_ok X 0 (.obj 0) (.checker 0 0 1) "__module__" (by decide) false s3 _ _ (cur _ _) _ _).mpr hr
    unfold lookAttr
    rw [run_tryCatch, run_bind]
    unfold publicV
    rw [this]
    rfl
  refine ⟨s4, ?_, hK, rfl⟩
  have hred : reduceValue X K publicV s = (.ok (some (.str 1 "CheckerPublic")), s3) := by
    unfold reduceValue
    rw [run_bind, l1]
    show (lookAttr X publicV "__reduce__" >>= _) s = _
    rw [run_bind, l2]
    show (callFound X _ [] >>= _) s2 = _
    rw [run_bind, l3]
    rfl
  unfold save
  rw [run_bind, hred]
  show saveGlobal X K publicV "CheckerPublic" s3 = _
  unfold saveGlobal whichModule
  rw [run_bind, run_bind, l4]
  show (Res.ok (if K.globals "zope.security.checker" "CheckerPublic" = some publicV then _ else _), s4) = _
  rw [if_pos hK]

/-! ## Everything else -/

/-- Application code leaves the registry and the slots of proxies alone, uses up identifiers only, and its objects do not bring checkers
of their own. -/
structure Leaves (W : World A) : Prop where
  reg : ∀ r s, (W.apply r s).2.reg = s.reg
  slots : ∀ id, NotRepointed W id
  ids : ∀ r s, s.nextId ≤ (W.apply r s).2.nextId
  noOwn : ∀ v s k s', W.apply (.getattr v "__Security_checker__") s ≠ (.ok k, s')

theorem Leaves.fresh {W : World A} (h : Leaves W) (r : RawOp) (s : St A) (hs : FreshOv s) : FreshOv (W.apply r s).2 := by
  intro i hi
  have := hs i (Nat.le_trans (h.ids r s) hi)
  exact ⟨((h.slots i r s).1).trans this.1, ((h.slots i r s).2).trans this.2⟩

/-- An ordinary object of a type for which the registry has a checker, or of a type it does not know. -/
structure Covered (W : World A) (reg : PyDict Key Val) (v : Val) : Prop where
  bare : ¬ IsProxy v
  noDeco : ∀ i cls u, v ≠ .deco i cls u
  noExc : W.isExc v = false
  entry : ∃ c, Entry reg (typeOf W v) c ∧ IsChecker c

/-- Such an object never comes out of a proxy unprotected. -/
theorem covered_proxied (X : Ctx A) (hW : Leaves X.W) (c v : Val) (hc : IsChecker c) (s : St A) (hv : Covered X.W s.reg v)
    (hf : FreshOv s) (r : Val) (s' : St A) (h : chkProxy X c v s = (.ok r, s')) :
    ∃ id k, r = .proxy id v k ∧ IsChecker k ∧ s'.ovW id = none ∧ s'.ovC id = none := by
  have noSC : ∀ k s1, getSC X v s ≠ (.ok k, s1) := by
    intro k s1 hr
    cases v with
    | deco i cls u => exact hv.noDeco _ _ _ rfl
    | obj o => obtain ⟨_, h1⟩ := probe_ok hr; exact hW.noOwn _ _ _ _ h1
    | type o => obtain ⟨_, h1⟩ := probe_ok hr; exact hW.noOwn _ _ _ _ h1
    | module o => obtain ⟨_, h1⟩ := probe_ok hr; exact hW.noOwn _ _ _ _ h1
    | fn o => obtain ⟨_, h1⟩ := probe_ok hr; exact hW.noOwn _ _ _ _ h1
    | _ => cases hr
  have keepsReg : Keeps (fun s1 : St A => s1.reg = s.reg ∧ FreshOv s1) X.W :=
    ⟨fun r s1 h => ⟨(hW.reg r s1).trans h.1, hW.fresh r s1 h.2⟩, fun _ _ h => h,
      fun s1 h => ⟨h.1, (freshOv_keeps hW.fresh).nextId s1 h.2⟩⟩
  have sel : ∀ s1 : St A, s1.reg = s.reg → ∃ k, IsChecker k ∧ selectChecker X v s1 = (.ok k, s1) := by
    intro s1 h1
    obtain ⟨k, he, hk⟩ := hv.entry
    rw [← h1] at he
    by_cases hd : k = .checker 1 2 3
    · subst hd
      refine ⟨_, hk, ?_⟩
      have hl : s1.reg.get? (.ty (typeOf X.W v)) = none ∨ s1.reg.get? (.ty (typeOf X.W v)) = some (.checker 1 2 3) := by
        rcases he with h | h
        · exact .inr h
        · exact .inl h.1
      rw [selectChecker_eq]
      have hre : regEntry X.W s1 v = .checker 1 2 3 := by rcases hl with h | h <;> simp [regEntry, h, defaultChecker]
      rw [hre, if_neg (by simp), if_neg (by rintro ⟨_, _, b⟩; rw [hv.noExc] at b; cases b), selectLoop_checker _ _ _ _ _ rfl]
    · rcases he with h | ⟨_, h⟩
      · exact ⟨k, hk, (C07_direct X v s1).1 k h hk hd⟩
      · exact absurd h hd
  have byType : ∀ s1 : St A, s1.reg = s.reg ∧ FreshOv s1 → ByType (selectChecker X v) v s1 (.ok r, s') →
      ∃ id k, r = .proxy id v k ∧ IsChecker k ∧ s'.ovW id = none ∧ s'.ovC id = none := by
    intro s1 h1 hb
    obtain ⟨k, hk, hs⟩ := sel s1 h1.1
    cases hb with
    | bare h => rw [hs] at h; cases h; rcases hk with ⟨_, _, _, h⟩ | ⟨_, _, _, _, h⟩ <;> cases h
    | wrap h h2 h3 =>
      rw [hs] at h; cases h
      simp only [Fresh, Prod.mk.injEq, Res.ok.injEq] at h3
      have h4 := h1.2 s1.nextId (Nat.le_refl _)
      exact ⟨_, _, h3.1, hk, by rw [h3.2]; exact h4.1, by rw [h3.2]; exact h4.2⟩
  have hSCreg := Pres.getSC keepsReg v s ⟨rfl, hf⟩
  have hspec := (C06_proxy_spec X c v hc s _).mp h
  cases hspec with
  | already h' => exact absurd h' hv.bare
  | own _ h2 => exact absurd h2 (noSC _ _)
  | absent _ h2 _ h4 => rw [h2] at hSCreg; exact byType _ hSCreg h4
  | ownNone _ h2 => exact absurd h2 (noSC _ _)

/-- **C70** A proxy under one of the package's checkers is pickled by name or not at all, whatever its checker grants: what is read
again later is the proxy itself, and nothing of the wrapped object gets into the pickle.  This is so
because the tuple that describes an object would be read through a proxy, provided methods and tuples are protected
(as they are by default). -/
theorem C70_by_name (X : Ctx A) (hW : Leaves X.W) (K : Pickler) (p : Val) (s : St A) (w c : Val)
    (hcur : current X.impl s p = some (w, c)) (hc : IsChecker c) (hf : FreshOv s)
    (hmeth : ∀ n ∈ ["__reduce_ex__", "__reduce__"], ∀ s1 v s2, X.W.apply (.getattr w n) s1 = (.ok v, s2) → Covered X.W s.reg v)
    (htup : ∀ o, K.isTup o = true → Covered X.W s.reg (.obj o)) (r : Saved) (s' : St A)
    (h : save X K p s = (.ok r, s')) :
    r = .refused ∨ ∃ m n, r = .byName m n ∧ K.load r = some p := by
  cases p with
  | proxy id w0 c0 =>
    let P : St A → Prop := fun t => t.reg = s.reg ∧ FreshOv t ∧ t.ovW id = s.ovW id ∧ t.ovC id = s.ovC id
    have hP : Keeps P X.W :=
      ⟨fun r t h => ⟨(hW.reg r t).trans h.1, hW.fresh r t h.2.1, (hW.slots id r t).1.trans h.2.2.1, (hW.slots id r t).2.trans h.2.2.2⟩,
        fun _ _ h => h, fun t h => ⟨h.1, (freshOv_keeps hW.fresh).nextId t h.2.1, h.2.2⟩⟩
    have curP : ∀ t, P t → current X.impl t (.proxy id w0 c0) = some (w, c) := by
      intro t ht
      rw [← hcur]
      cases X.impl with
      | c => rfl
      | py => simp only [current, ht.2.2.1, ht.2.2.2]
    have popP : ∀ (q : Val) (op : POp), (∀ b o, op ≠ .inplace b o) → (∀ n v, op ≠ .setattr n v) → Pres P (pop X q op) := by
      intro q op h1 h2
      refine Pres.pop hP q op ?_
      rintro ⟨_, ⟨b, o, h⟩ | ⟨v, h⟩ | ⟨v, h⟩⟩
      · exact absurd h (h1 b o)
      · exact absurd h (h2 _ v)
      · exact absurd h (h2 _ v)
    -- looking up
    have look : ∀ n ∈ ["__reduce_ex__", "__reduce__"], ∀ t, P t → ∀ x t', lookAttr X (.proxy id w0 c0) n t = (.ok x, t') →
        P t' ∧ ∀ f, x = some f → ∃ i v k, f = .proxy i v k ∧ IsChecker k ∧ current X.impl t' f = some (v, k) := by
      intro n hn t ht x t' hl
      have hn' : n ∈ pickleNames := by
        have : ∀ n ∈ ["__reduce_ex__", "__reduce__"], n ∈ pickleNames := by decide
        exact this n hn
      have hpp := popP (.proxy id w0 c0) (.getattr n false) (fun _ _ h => nomatch h) (fun _ _ h => nomatch h) t ht
      unfold lookAttr at hl
      rw [run_tryCatch, run_bind] at hl
      rcases hg : pop X (.proxy id w0 c0) (.getattr n false) t with ⟨res, t1⟩
      rw [hg] at hl hpp
      cases res with
      | diverge => cases hl
      | err e =>
        simp only [run_pure] at hl
        split at hl
        · cases hl; exact ⟨hpp, fun f hf => nomatch hf⟩
        · cases hl
      | ok v0 =>
        cases hl
        refine ⟨hpp, fun f hf => ?_⟩
        cases hf
        have hr := (pop_pickle_ok X id w0 c0 n hn' false t w c (curP t ht) _ _).mp hg
        unfold readRaw at hr
        obtain ⟨_, t2, h1, h2⟩ := bind_eq_ok hr
        obtain ⟨v, t3, h3, h4⟩ := bind_eq_ok h2
        have p2 := Pres.chkCheck hP (H := hasattrX X) (fun a b => Pres.hasattrX hP a b) .getattr c w n t ht
        rw [h1] at p2
        have p3 := Pres.perform hP (.getattr w n) t2 p2
        rw [h3] at p3
        obtain ⟨_, ha⟩ := perform_ok h3
        have hcov := hmeth n hn _ _ _ ha
        rw [← p3.1] at hcov
        obtain ⟨i, k, rfl, hk, ho1, ho2⟩ := covered_proxied X hW c v hc t3 hcov p3.2.1 _ _ h4
        refine ⟨i, v, k, rfl, hk, ?_⟩
        cases X.impl with
        | c => rfl
        | py => simp only [current, ho1, ho2, Option.getD_none]
    -- calling
    have call : ∀ t, P t → ∀ f args v t', (∃ i u k, f = .proxy i u k ∧ IsChecker k ∧ current X.impl t f = some (u, k)) →
        callFound X f args t = (.ok v, t') → K.isTuple v = false := by
      rintro t ht f args v t' ⟨i, u, k, rfl, hk, hcu⟩ hcall
      have h1 : pop X (.proxy i u k) (.call args) t = (.ok v, t') := hcall
      rw [C13_exact X (fun _ => hW.slots) (.proxy i u k) ⟨_, _, _, rfl⟩ (.call args) trivial _ rfl t u k hcu] at h1
      obtain ⟨_, t2, h1, h2⟩ := bind_eq_ok h1
      obtain ⟨v0, t3, h3, h4⟩ := bind_eq_ok h2
      have p2 := Pres.chkCheck hP (H := hasattrX X) (fun a b => Pres.hasattrX hP a b) .check k u "__call__" t ht
      have p2' : P t2 := by
        have e : (ZS.chkCheck X (hasattrX X) .check k u "__call__" t).2 = t2 := congrArg Prod.snd h1
        rw [← e]; exact p2
      have p3 := Pres.perform hP (.special "__call__" u args) t2 p2'
      have p3' : P t3 := by
        have e : (ZS.perform X (.special "__call__" u args) t2).2 = t3 := congrArg Prod.snd h3
        rw [← e]; exact p3
      cases htv : K.isTuple v with
      | false => rfl
      | true =>
        exfalso
        cases v with
        | obj o =>
          have hcov : Covered X.W t3.reg (.obj o) := by rw [p3'.1]; exact htup o htv
          rcases C06_result X k v0 hk t3 _ _ h4 with ⟨rfl, _⟩ | ⟨_, _, _, h, _⟩
          · obtain ⟨_, _, h, _⟩ := covered_proxied X hW k (.obj o) hk t3 hcov p3'.2.1 _ _ h4
            cases h
          · cases h
        | _ => cases htv
    have hs : P s := ⟨rfl, hf, rfl, rfl⟩
    have red : ∀ x t', reduceValue X K (.proxy id w0 c0) s = (.ok x, t') → ∀ v, x = some v → K.isTuple v = false := by
      intro x t' hr v hv
      unfold reduceValue at hr
      obtain ⟨x1, t1, h1, h2⟩ := bind_eq_ok hr
      obtain ⟨p1, f1⟩ := look _ (by simp) s hs _ _ h1
      cases x1 with
      | some f =>
        obtain ⟨v', t2, h3, h4⟩ := bind_eq_ok h2
        cases h4; cases hv
        exact call t1 p1 f _ _ _ (f1 f rfl) h3
      | none =>
        obtain ⟨x2, t2, h3, h4⟩ := bind_eq_ok h2
        obtain ⟨p2, f2⟩ := look _ (by simp) t1 p1 _ _ h3
        cases x2 with
        | some f =>
          obtain ⟨v', t3, h5, h6⟩ := bind_eq_ok h4
          cases h6; cases hv
          exact call t2 p2 f _ _ _ (f2 f rfl) h5
        | none => cases h4; cases hv
    unfold save at h
    obtain ⟨x, t1, h1, h2⟩ := bind_eq_ok h
    cases x with
    | none => cases h2; exact .inl rfl
    | some rv =>
      have htup := red _ _ h1 rv rfl
      cases ht : K.text rv with
      | none =>
        simp only [ht, htup] at h2
        cases h2
        exact .inl rfl
      | some nm =>
        simp only [ht] at h2
        unfold saveGlobal at h2
        obtain ⟨m, t2, _, h3⟩ := bind_eq_ok h2
        cases h3
        by_cases hg : K.globals m nm = some (.proxy id w0 c0)
        · rw [if_pos hg]; exact .inr ⟨m, nm, rfl, hg⟩
        · rw [if_neg hg]; exact .inl rfl
  | _ => cases X.impl <;> simp [current] at hcur

/-- **C70** A checker that grants neither of the two names (whatever it is) lets nothing be done to the object. -/
theorem C70_nothing_done (X : Ctx A) (hW : X.impl = .py → ∀ id, NotRepointed X.W id) (K : Pickler) (p : Val) (s : St A) (w c : Val)
    (hcur : current X.impl s p = some (w, c))
    (hden : ∀ n ∈ ["__reduce_ex__", "__reduce__"], ∀ t t', chkCheck X (hasattrX X) .getattr c w n t ≠ (.ok (), t')) :
    NewEvents s (save X K p s).2 IsProbe ∧ (∀ r, (save X K p s).1 = .ok r → r = .refused) := by
  cases p with
  | proxy id w0 c0 =>
    have hall : ∀ n ∈ ["__reduce_ex__", "__reduce__"], n ∈ pickleNames ∧ n ≠ "__iter__" ∧ ∀ impl, need impl (.proxy id w0 c0) (.getattr n false)
        = some ⟨.proxy id w0 c0, .getattr, n, fun w => .getattr w n⟩ := by
      intro n hn
      simp only [List.mem_cons, List.not_mem_nil, or_false] at hn
      rcases hn with rfl | rfl <;> exact ⟨by decide, by decide, fun impl => by cases impl <;> rfl⟩
    have look : ∀ n ∈ ["__reduce_ex__", "__reduce__"], ∀ t, current X.impl t (.proxy id w0 c0) = some (w, c) →
        NewEvents t (lookAttr X (.proxy id w0 c0) n t).2 IsProbe
        ∧ (∀ x, (lookAttr X (.proxy id w0 c0) n t).1 = .ok x → x = none)
        ∧ current X.impl (lookAttr X (.proxy id w0 c0) n t).2 (.proxy id w0 c0) = some (w, c) := by
      intro n hn t ht
      have hne := C14_nothing_done X hW (.proxy id w0 c0) ⟨_, _, _, rfl⟩ (.getattr n false) _ ((hall n hn).2.2 X.impl) t w c ht
        (.inr (hall n hn).2.1) (fun t' => hden n hn t t')
      have hnok : ∀ v t', pop X (.proxy id w0 c0) (.getattr n false) t ≠ (.ok v, t') := by
        intro v t' hp
        have hr := (pop_pickle_ok X id w0 c0 n (hall n hn).1 false t w c ht _ _).mp hp
        obtain ⟨_, t2, h1, _⟩ := bind_eq_ok hr
        exact hden n hn t t2 h1
      have hcu : current X.impl (pop X (.proxy id w0 c0) (.getattr n false) t).2 (.proxy id w0 c0) = some (w, c) := by
        rw [← ht]
        cases hX : X.impl with
        | c => rfl
        | py =>
          have hk : Keeps (fun u : St A => u.ovW id = t.ovW id ∧ u.ovC id = t.ovC id) X.W := (hW hX id).keeps _ _
          have := Pres.pop hk (.proxy id w0 c0) (.getattr n false)
            (by rintro ⟨_, ⟨_, _, h⟩ | ⟨_, h⟩ | ⟨_, h⟩⟩ <;> cases h) t ⟨rfl, rfl⟩
          simp only [current, this.1, this.2]
      unfold lookAttr
      rw [run_tryCatch, run_bind]
      rcases hg : pop X (.proxy id w0 c0) (.getattr n false) t with ⟨res, t1⟩
      rw [hg] at hne hcu
      cases res with
      | ok v => exact absurd hg (hnok v t1)
      | diverge => exact ⟨hne, fun x h => by simp at h, hcu⟩
      | err e =>
        simp only
        split
        · exact ⟨hne, fun x h => by cases h; rfl, hcu⟩
        · exact ⟨hne, fun x h => (by cases h), hcu⟩
    obtain ⟨n1, r1, c1⟩ := look "__reduce_ex__" (by simp) s hcur
    rcases hl1 : lookAttr X (.proxy id w0 c0) "__reduce_ex__" s with ⟨x1, t1⟩
    rw [hl1] at n1 r1 c1
    unfold save reduceValue
    rw [run_bind, run_bind, hl1]
    cases x1 with
    | err e => exact ⟨n1, fun r h => by cases h⟩
    | diverge => exact ⟨n1, fun r h => by cases h⟩
    | ok x =>
      obtain rfl := r1 x rfl
      obtain ⟨n2, r2, c2⟩ := look "__reduce__" (by simp) t1 c1
      rcases hl2 : lookAttr X (.proxy id w0 c0) "__reduce__" t1 with ⟨x2, t2⟩
      rw [hl2] at n2 r2 c2
      simp only
      rw [run_bind, hl2]
      cases x2 with
      | err e => exact ⟨n1.trans n2, fun r h => by cases h⟩
      | diverge => exact ⟨n1.trans n2, fun r h => by cases h⟩
      | ok y =>
        obtain rfl := r2 y rfl
        exact ⟨n1.trans n2, fun r h => by cases h; rfl⟩
  | _ => cases X.impl <;> simp [current] at hcur

/-! ## CheckerPublic comes out of every operation as itself -/

/-- **C48** Every operation that protects its result (operators, calls, items, iteration) delivers `CheckerPublic` as `CheckerPublic`,
in both implementations. -/
theorem C48_operations (X : Ctx A) (hW : X.impl = .py → ∀ id, NotRepointed X.W id) (p : Val) (hp : IsProxy p) (op : POp)
    (hop : Plain X.impl op) (q : Need) (hq : need X.impl p op = some q) (s s1 s2 : St A) (w c : Val)
    (hcur : current X.impl s q.actor = some (w, c)) (hc : IsChecker c)
    (hchk : chkCheck X (hasattrX X) q.kind c w q.name s = (.ok (), s1)) (hraw : perform X (q.carry w) s1 = (.ok publicV, s2)) :
    pop X p op s = (.ok publicV, s2) := by
  rw [C13_exact X hW p hp op hop q hq s w c hcur, run_bind, hchk]
  show (perform X _ >>= _) s1 = _
  rw [run_bind, hraw]
  exact (C48_identity X c hc s2).2

/-- **C48** ... and so does reading an attribute. -/
theorem C48_attribute (X : Ctx A) (hW : X.impl = .py → ∀ id, NotRepointed X.W id) (id : Nat) (w0 c0 : Val) (n : Name) (b : Bool)
    (hn : X.impl = .py → n ∉ freeAttrs ∧ n ≠ "_wrapped" ∧ n ≠ "_checker") (q : Need)
    (hq : need X.impl (.proxy id w0 c0) (.getattr n b) = some q) (s s1 s2 : St A) (w c : Val)
    (hcur : current X.impl s (.proxy id w0 c0) = some (w, c)) (hc : IsChecker c)
    (hchk : chkCheck X (hasattrX X) .getattr c w n s = (.ok (), s1)) (hraw : perform X (q.carry w) s1 = (.ok publicV, s2)) :
    pop X (.proxy id w0 c0) (.getattr n b) s = (.ok publicV, s2) := by
  cases hX : X.impl with
  | c =>
    rw [hX] at hcur hq
    simp only [current, Option.some.injEq, Prod.mk.injEq] at hcur
    obtain ⟨rfl, rfl⟩ := hcur
    cases hq
    rw [pop_c hX]
    show (chkCheck X (hasattrX X) .getattr c0 w0 n >>= _) s = _
    rw [run_bind, hchk]
    show (perform X _ >>= _) s1 = _
    rw [run_bind, hraw]
    exact (C48_identity X c0 hc s2).2
  | py =>
    rw [hX] at hcur hq
    obtain ⟨h1, h2, h3⟩ := hn hX
    simp only [current, Option.some.injEq, Prod.mk.injEq] at hcur
    have hwc : proxyWrapped X s id w0 = w ∧ proxyChecker X s id c0 = c := by
      simp only [proxyWrapped, proxyChecker, hX]; exact hcur
    have hk := check_keeps (hW hX id) .getattr c w n s
    rw [hchk] at hk
    have hw1 : proxyWrapped X s1 id w0 = w := by
      have hk1 : s1.ovW id = s.ovW id := hk.1
      rw [← hwc.1]; simp only [proxyWrapped, hX, hk1]
    rw [pop_py hX]
    show M.tryCatch (getattributePy X (hasattrX X) id w0 c0 n b) Exn.isAttr _ s = _
    have : getattributePy X (hasattrX X) id w0 c0 n b s = (.ok publicV, s2) := by
      unfold getattributePy
      rw [run_ite, if_neg (by simp [h2, h3])]
      show (if n = "_wrapped" then pure _ else if n = "_checker" then pure _ else _ : M A Val) s = _
      rw [run_ite, if_neg h2, run_ite, if_neg h3]
      unfold getattributeCheckPy
      rw [if_neg (show n ∉ pyUncheckedAttrs from h1), run_bind, hwc.1, hwc.2, hchk]
      simp only [need, if_neg h1] at hq
      by_cases hr : n = "__reduce__" ∨ n = "__reduce_ex__" ∨ n = "__module__"
      · rw [if_pos hr] at hq ⊢
        cases hq
        show (perform X _ >>= _) s1 = _
        rw [run_bind, hraw]
        exact (C48_identity X c hc s2).2
      · rw [if_neg hr] at hq ⊢
        cases hq
        show (perform X (.baseGetattr (proxyWrapped X s1 id w0) n) >>= _) s1 = _
        rw [hw1, run_bind, hraw]
        exact (C48_identity X c hc s2).2
    rw [run_tryCatch, this]

/-- Item 0 of object 1 is `CheckerPublic`. -/
example : ∀ impl, (pop ⟨{ Ex.W with apply := fun r s => match r with
      | .special "__getitem__" _ _ => (.ok publicV, s)
      | .getattr _ "perm" | .baseGetattr _ "perm" => (.ok publicV, s)
      | _ => (.err (.attributeError "x"), s) }, impl, 0, 5, 3⟩ (.proxy 70 (.obj 1) (.checker 60 30 31)) (.getitem (.int 0))
      { initial Ex.ext () with dicts := fun _ => [("__getitem__", publicV), ("perm", publicV)] }).1 = .ok publicV := by
  intro impl; cases impl <;> decide +kernel

/-! ## Examples -/

/-- A pickler that finds `CheckerPublic` where it is defined, and proxy 70 in `app`. -/
def exPickler : Pickler where
  globals := fun m n =>
    if m = "zope.security.checker" ∧ n = "CheckerPublic" then some publicV
    else if m = "app" ∧ n = "thing" then some (.proxy 70 (.obj 1) (.checker 60 30 31))
    else none
  loaded := ["sys", "app"]
  isTup := fun o => o = 51
  subText := fun _ => none
  proto := 4

/-- Object 1 has a `__reduce__` (object 50) returning the tuple 51, object 2 one (object 52) returning a name. -/
def pickleWorld : World Unit where
  objType := fun o => if o = 50 ∨ o = 52 then "method" else if o = 51 then "tuple" else "Thing"
  metaType := fun _ => "type"
  isExc := fun _ => false
  isInst := fun _ _ => false
  truth := fun _ => true
  strSub := fun _ => false
  addr := fun _ => "0x1"
  isLoc := fun _ => false
  apply := fun r s =>
    match r with
    | .getattr (.obj 1) "__reduce__" => (.ok (.obj 50), s)
    | .special "__call__" (.obj 50) [] => (.ok (.obj 51), s)
    | .getattr (.obj 2) "__reduce__" => (.ok (.obj 52), s)
    | .special "__call__" (.obj 52) [] => (.ok (.str 9 "thing"), s)
    | _ => (.err (.attributeError "x"), s)

/-- Checker 60 declares `__reduce__` public. -/
def pickleState : St Unit :=
  let s := initial Ex.ext ()
  { s with dicts := fun i => if i = 30 then [("__reduce__", publicV)] else s.dicts i }

example : PublicIntact Ex.ext () pickleState ∧ FreshOv pickleState ∧ pickleState.avail = availableByDefault
    ∧ pickleState.reg.get? (.ty "method") = some (.checker 3 6 7) ∧ pickleState.dicts 6 = (initial Ex.ext ()).dicts 6
    ∧ pickleState.reg.get? (.ty "str") = some .noProxy
    ∧ exPickler.globals "zope.security.checker" "CheckerPublic" = some publicV :=
  ⟨⟨rfl, rfl, rfl, rfl⟩, fun _ _ => ⟨rfl, rfl⟩, rfl, by decide, rfl, by decide, by decide⟩

example : ∀ impl, (save ⟨publicWorld pickleWorld 90, impl, 0, 5, 3⟩ exPickler publicV pickleState).1
    = .ok (.byName "zope.security.checker" "CheckerPublic") := by
  intro impl; cases impl <;> decide +kernel

/-- An object with a granted `__reduce__`: not pickled, because the tuple arrives in a proxy ... -/
example : ∀ impl, (save ⟨pickleWorld, impl, 0, 5, 3⟩ exPickler (.proxy 70 (.obj 1) (.checker 60 30 31)) pickleState).1 = .ok .refused := by
  intro impl; cases impl <;> decide +kernel

/-- ... pickled with its contents if somebody registers tuples as needing no protection. -/
example : ∀ impl, (save ⟨pickleWorld, impl, 0, 5, 3⟩ exPickler (.proxy 70 (.obj 1) (.checker 60 30 31))
    { pickleState with reg := pickleState.reg.set (.ty "tuple") .noProxy }).1 = .ok (.reduced (.obj 51)) := by
  intro impl; cases impl <;> decide +kernel

/-- An object that says where it is to be found, but is not there: the pickler refuses.  What is found there is another proxy. -/
example : ∀ impl, (save ⟨pickleWorld, impl, 0, 5, 3⟩ exPickler (.proxy 71 (.obj 2) (.checker 60 30 31)) pickleState).1 = .ok .refused := by
  intro impl; cases impl <;> decide +kernel

/-- The hypotheses of `C70_by_name`. -/
example : Leaves pickleWorld
    ∧ (∀ n ∈ ["__reduce_ex__", "__reduce__"], ∀ s1 v s2, pickleWorld.apply (.getattr (.obj 1) n) s1 = (.ok v, s2) →
        Covered pickleWorld pickleState.reg v)
    ∧ ∀ o, exPickler.isTup o = true → Covered pickleWorld pickleState.reg (.obj o) := by
  have pure : ∀ r s, (pickleWorld.apply r s).2 = s := by
    intro r s
    simp only [pickleWorld]
    split <;> rfl
  refine ⟨⟨fun r s => by rw [pure], fun id r s => by rw [pure]; exact ⟨rfl, rfl⟩, fun r s => by rw [pure]; exact Nat.le_refl _, ?_⟩, ?_, ?_⟩
  · intro v s k s' h
    simp only [pickleWorld] at h
    split at h <;> simp_all
  · intro n hn s1 v s2 h
    simp only [List.mem_cons, List.not_mem_nil, or_false] at hn
    rcases hn with rfl | rfl
    · simp [pickleWorld] at h
    · simp only [pickleWorld, Prod.mk.injEq, Res.ok.injEq] at h
      obtain ⟨rfl, _⟩ := h
      exact ⟨(fun ⟨_, _, _, h⟩ => nomatch h), (fun _ _ _ h => nomatch h), rfl, .checker 3 6 7, .inl (by decide), .inl ⟨_, _, _, rfl⟩⟩
  · intro o ho
    have : o = 51 := by simpa [exPickler] using ho
    subst this
    exact ⟨(fun ⟨_, _, _, h⟩ => nomatch h), (fun _ _ _ h => nomatch h), rfl, .checker 10 20 21, .inl (by decide), .inl ⟨_, _, _, rfl⟩⟩

/-- A checker that declares nothing: refused, nothing happened. -/
example : ∀ impl, current impl pickleState (.proxy 70 (.obj 1) (.checker 61 32 33)) = some (.obj 1, .checker 61 32 33)
    ∧ (∀ n, Undeclared impl (pickleState.dicts 32) n) := by
  intro impl
  exact ⟨by cases impl <;> rfl, fun n p h => nomatch h.1⟩

end ZS.Props
