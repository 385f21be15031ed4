import Verif.Lemmas.Select
import Verif.Lemmas.Pres
import Verif.Examples.World

/-!
# C06-C10, C20: choosing checkers, creating and removing proxies
-/

namespace ZS.Props
open Spec
variable {A : Type}

/-! ## C07 selectChecker -/

/-- **C07** Whenever `selectChecker(o)` ends (with a value or an exception), its outcome and
effects are those of `SelectSpec`. -/
theorem C07_select_sound (X : Ctx A) (o : Val) (s : St A) (r : Res Val) (s' : St A)
    (h : selectChecker X o s = (r, s')) (hr : r ≠ .diverge) : SelectSpec X o s r s' := by
  rw [selectChecker_eq] at h
  have he := (entry_iff X.W s o _).mpr rfl
  split at h
  · next h0 => cases h; rw [h0] at he; exact .rock he
  · next h0 =>
    split at h
    · next h1 => cases h; rw [h1.2.1] at he; exact .exception h1.1 he h1.2.2
    · next h1 => exact .resolved he h0 h1 (selectLoop_sound _ _ _ _ _ _ _ h hr)

/-- **C07** Conversely every outcome `SelectSpec` describes is reached by running the loop long
enough. -/
theorem C07_select_complete (X : Ctx A) (o : Val) (s : St A) (r : Res Val) (s' : St A)
    (h : SelectSpec X o s r s') :
    ∃ k0, ∀ k, k0 ≤ k → selectChecker { X with fuel := k } o s = (r, s') := by
  cases h with
  | rock h =>
    refine ⟨0, fun k _ => ?_⟩
    rw [selectChecker_eq, if_pos ((entry_iff X.W s o _).mp h)]
  | exception h1 h2 h3 =>
    refine ⟨0, fun k _ => ?_⟩
    have h2' := (entry_iff X.W s o _).mp h2
    rw [selectChecker_eq, if_neg (by rw [show regEntry _ s o = _ from h2']; simp), if_pos ⟨h1, h2', h3⟩]
  | resolved h1 h2 h3 h4 =>
    obtain ⟨k0, hk0⟩ := selectLoop_complete X o _ s _ _ h4
    have h1' := (entry_iff X.W s o _).mp h1
    refine ⟨k0, fun k hk => ?_⟩
    have hX : ∀ c, selectLoop { X with fuel := k } o k c s = selectLoop X o k c s := by
      have : ∀ j c s, selectLoop { X with fuel := k } o j c s = selectLoop X o j c s := by
        intro j
        induction j with
        | zero => intro c s; rw [selectLoop_zero, selectLoop_zero]
        | succ j ih =>
          intro c s
          rw [selectLoop_succ, selectLoop_succ]
          by_cases hc : c.isChecker
          · simp [hc]
          · simp only [hc, Bool.false_eq_true, if_false, run_bind]
            rw [show callFactory { X with fuel := k } c o s = callFactory X c o s from rfl]
            rcases callFactory X c o s with ⟨r1, s1⟩
            cases r1 with
            | ok c' => simp only; rw [run_ite, run_ite]; split
                       · rfl
                       · exact ih c' s1
            | err e => rfl
            | diverge => rfl
      exact fun c => this k c s
    rw [selectChecker_eq, if_neg (by rw [show regEntry _ s o = _ from h1']; exact h2)]
    rw [if_neg (by rw [show regEntry _ s o = _ from h1']; exact h3)]
    rw [show regEntry _ s o = _ from h1', show selectLoop _ o _ _ s = _ from hX _]
    exact hk0 k hk

/-- **C07** The answer is `None` or a checker, never anything else. -/
theorem C07_none_or_checker (X : Ctx A) (o : Val) (s : St A) (v : Val) (s' : St A)
    (h : selectChecker X o s = (.ok v, s')) : v = .none ∨ IsChecker v := by
  rcases selectChecker_result X o s v s' h with h | h
  · exact .inl h
  · exact .inr ((isChecker_iff v).mp h)

/-- **C07** The direct cases, for any fuel and without side effects: a registered `Checker` is
returned as it is, an unregistered type gets the deny-by-default checker (in C unless the object
is an exception), `NoProxy` gives `None`, a `None` entry is a TypeError. -/
theorem C07_direct (X : Ctx A) (o : Val) (s : St A) :
    (∀ c, s.reg.get? (.ty (typeOf X.W o)) = some c → IsChecker c → c ≠ .checker 1 2 3 →
        selectChecker X o s = (.ok c, s))
    ∧ (s.reg.get? (.ty (typeOf X.W o)) = none → (X.impl = .c → X.W.isExc o = false) →
        selectChecker X o s = (.ok (.checker 1 2 3), s))
    ∧ (s.reg.get? (.ty (typeOf X.W o)) = some .noProxy → selectChecker X o s = (.ok .none, s))
    ∧ (s.reg.get? (.ty (typeOf X.W o)) = some .none → 0 < X.fuel →
        selectChecker X o s = (.err .typeError, s)) := by
  rw [selectChecker_eq]
  refine ⟨fun c h hc hd => ?_, fun h hx => ?_, fun h => ?_, fun h hf => ?_⟩
  · have : regEntry X.W s o = c := by simp [regEntry, h]
    rw [this, if_neg (by rintro rfl; rcases hc with ⟨_, _, _, h⟩ | ⟨_, _, _, _, h⟩ <;> cases h),
      if_neg (fun h => hd h.2.1), selectLoop_checker _ _ _ _ _ ((isChecker_iff c).mpr hc)]
  · have : regEntry X.W s o = .checker 1 2 3 := by simp [regEntry, h, defaultChecker]
    rw [this, if_neg (by simp), if_neg (by rintro ⟨a, _, b⟩; rw [hx a] at b; cases b),
      selectLoop_checker _ _ _ _ _ rfl]
  · have : regEntry X.W s o = .noProxy := by simp [regEntry, h]
    rw [this, if_pos rfl]
  · have : regEntry X.W s o = .none := by simp [regEntry, h]
    obtain ⟨k, hk⟩ : ∃ k, X.fuel = k + 1 := ⟨X.fuel - 1, by omega⟩
    rw [this, if_neg (by simp), if_neg (by simp [defaultChecker]), hk, selectLoop_succ]
    simp [Val.isChecker, run_bind, callFactory]

/-- **C07** Apart from factories (which are handed the object) and the exception rule of the
compiled version, the answer depends on the object only through its type. -/
theorem C07_by_type_only (X : Ctx A) (o o' : Val) (s : St A) (ht : typeOf X.W o = typeOf X.W o')
    (hx : X.W.isExc o = X.W.isExc o') (hreg : ∀ e, s.reg.get? (.ty (typeOf X.W o)) = some e → IsChecker e ∨ e = .noProxy) :
    selectChecker X o s = selectChecker X o' s := by
  have he : regEntry X.W s o = regEntry X.W s o' := by simp [regEntry, ht]
  rw [selectChecker_eq, selectChecker_eq, he, hx]
  have hc : regEntry X.W s o' ≠ .noProxy → (regEntry X.W s o').isChecker = true := by
    rw [← he]
    intro hn
    unfold regEntry at hn ⊢
    cases h : s.reg.get? (.ty (typeOf X.W o)) with
    | none => rfl
    | some e =>
      rw [h] at hn
      rcases hreg e h with h1 | h1
      · exact (isChecker_iff e).mpr h1
      · exact absurd h1 hn
  split
  · rfl
  · next hn =>
    rw [selectLoop_checker _ _ _ _ _ (hc hn), selectLoop_checker _ _ _ _ _ (hc hn)]

/-- A factory registered for a type: object 1's type has factory 5, which the world answers with
checker 7. -/
example : SelectSpec ⟨{ Ex.W with apply := fun _ s => (.ok (.checker 7 8 9), s) }, .py, 0, 5, 0⟩ (.obj 1)
    { Ex.s0 with reg := [(.ty "Thing", .fn 5)] } (.ok (.checker 7 8 9))
    { Ex.s0 with reg := [(.ty "Thing", .fn 5)], trace := [.probed (.call (.fn 5) [.obj 1])] } :=
  C07_select_sound _ _ _ _ _ rfl (by simp)

/-! ## C08 -/

/-- **C08** On anything but exceptions that would get the default checker, both implementations
run identically; on those, C answers `None` and Python the default checker. -/
theorem C08_select_agree (W : World A) (t f d : Nat) (o : Val) (s : St A) :
    (¬ (W.isExc o = true ∧ Entry s.reg (typeOf W o) (.checker 1 2 3)) →
      selectChecker ⟨W, .c, t, f, d⟩ o s = selectChecker ⟨W, .py, t, f, d⟩ o s)
    ∧ (W.isExc o = true → Entry s.reg (typeOf W o) (.checker 1 2 3) →
      selectChecker ⟨W, .c, t, f, d⟩ o s = (.ok .none, s)
      ∧ selectChecker ⟨W, .py, t, f, d⟩ o s = (.ok (.checker 1 2 3), s)) := by
  have hloop : ∀ k c s, selectLoop ⟨W, .c, t, f, d⟩ o k c s = selectLoop ⟨W, .py, t, f, d⟩ o k c s := by
    intro k
    induction k with
    | zero => intro c s; rw [selectLoop_zero, selectLoop_zero]
    | succ j ih =>
      intro c s
      rw [selectLoop_succ, selectLoop_succ]
      by_cases hc : c.isChecker
      · simp [hc]
      · simp only [hc, Bool.false_eq_true, if_false, run_bind]
        rw [show callFactory (⟨W, .c, t, f, d⟩ : Ctx A) c o s = callFactory ⟨W, .py, t, f, d⟩ c o s from rfl]
        rcases callFactory (⟨W, .py, t, f, d⟩ : Ctx A) c o s with ⟨r1, s1⟩
        cases r1 with
        | ok c' => simp only; rw [run_ite, run_ite]; split
                   · rfl
                   · exact ih c' s1
        | err e => rfl
        | diverge => rfl
  rw [selectChecker_eq, selectChecker_eq]
  simp only [entry_iff]
  constructor
  · intro h
    split
    · rfl
    · rw [if_neg (by rintro ⟨_, h1, h2⟩; exact h ⟨h2, h1⟩), if_neg (by simp)]
      exact hloop _ _ _
  · intro h1 h2
    rw [h2]
    rw [if_neg (by simp), if_pos ⟨trivial, rfl, h1⟩, if_neg (by simp), if_neg (by simp)]
    exact ⟨rfl, selectLoop_checker _ _ _ _ _ rfl⟩

/-- Object 3 is an exception of an unregistered type. -/
example : Ex.W.isExc (.obj 3) = true ∧ Entry Ex.s0.reg (typeOf Ex.W (.obj 3)) (.checker 1 2 3)
    ∧ ¬ (Ex.W.isExc (.obj 1) = true ∧ Entry Ex.s0.reg (typeOf Ex.W (.obj 1)) (.checker 1 2 3)) := by
  refine ⟨by decide, .inr ⟨by decide, rfl⟩, ?_⟩
  intro h; exact absurd h.1 (by decide)

/-! ## C06 checker.proxy -/

/-- **C06** `checker.proxy(v)` of any of the package's checkers follows `ProxySpec`: in Python only
an AttributeError means "has no `__Security_checker__`" and a `None` there counts as absent; in
C any exception means absent and a `None` there is a ValueError. -/
theorem C06_proxy_spec (X : Ctx A) (c v : Val) (hc : IsChecker c) (s : St A) (r : Res Val × St A) :
    chkProxy X c v s = r ↔
      ProxySpec (decide (X.impl = .py)) (getSC X v) (selectChecker X v) v s r := by
  unfold chkProxy
  rw [if_pos ((isChecker_iff c).mpr hc)]
  cases X.impl
  · exact protectPyProxy_iff X v s r
  · exact protectC_iff X v s r

theorem proxySpec_result {st : Bool} {own sel : St A → Res Val × St A} {v : Val} {s s' : St A} {r : Val}
    (h : ProxySpec st own sel v s (.ok r, s')) :
    (r = v ∧ (IsProxy v ∨ ∃ s1, sel s1 = (.ok .none, s'))) ∨
    (∃ id k s1, r = .proxy id v k ∧ ¬ IsProxy v ∧ k ≠ .none ∧ s1.nextId = id ∧ s' = { s1 with nextId := id + 1 } ∧
      (own s = (.ok k, s1) ∨ ∃ s2, sel s2 = (.ok k, s1))) := by
  have bt : ∀ s1, ¬ IsProxy v → ByType sel v s1 (.ok r, s') → (r = v ∧ (IsProxy v ∨ ∃ s1, sel s1 = (.ok .none, s'))) ∨
    (∃ id k s1, r = .proxy id v k ∧ ¬ IsProxy v ∧ k ≠ .none ∧ s1.nextId = id ∧ s' = { s1 with nextId := id + 1 } ∧
      (own s = (.ok k, s1) ∨ ∃ s2, sel s2 = (.ok k, s1))) := by
    intro s1 hv h
    cases h with
    | bare h => exact .inl ⟨rfl, .inr ⟨_, h⟩⟩
    | wrap h1 h2 h3 =>
      simp only [Fresh, Prod.mk.injEq, Res.ok.injEq] at h3
      exact .inr ⟨_, _, _, h3.1, hv, h2, rfl, h3.2, .inr ⟨_, h1⟩⟩
  cases h with
  | already h => exact .inl ⟨rfl, .inl h⟩
  | own h1 h2 h3 h4 =>
    simp only [Fresh, Prod.mk.injEq, Res.ok.injEq] at h4
    exact .inr ⟨_, _, _, h4.1, h1, h3, rfl, h4.2, .inl h2⟩
  | absent h1 h2 h3 h4 => exact bt _ h1 h4
  | ownNone h1 h2 h3 h4 => exact bt _ h1 h4

/-- **C06** The result is the value itself (it was a proxy, or selection said it needs none) or a
newly made proxy around exactly that value; never a proxy around anything else, never a proxy
around a proxy. -/
theorem C06_result (X : Ctx A) (c v : Val) (hc : IsChecker c) (s : St A) (r : Val) (s' : St A)
    (h : chkProxy X c v s = (.ok r, s')) :
    (r = v ∧ (IsProxy v ∨ ∃ s1, selectChecker X v s1 = (.ok .none, s')))
    ∨ (∃ id k s1, r = .proxy id v k ∧ ¬ IsProxy v ∧ k ≠ .none ∧ s1.nextId = id
        ∧ s' = { s1 with nextId := id + 1 }
        ∧ (getSC X v s = (.ok k, s1) ∨ ∃ s2, selectChecker X v s2 = (.ok k, s1))) :=
  proxySpec_result ((C06_proxy_spec X c v hc s _).mp h)

/-- Protecting a plain object, a string and a proxy. -/
example : chkProxy (Ex.X .c) Ex.c1 (.obj 1) Ex.s0 =
      (.ok (.proxy 100 (.obj 1) (.checker 1 2 3)),
        { Ex.s0 with nextId := 101, trace := [.probed (.getattr (.obj 1) "__Security_checker__")] })
    ∧ chkProxy (Ex.X .py) Ex.c1 (.str 0 "x") Ex.s0 = (.ok (.str 0 "x"), Ex.s0)
    ∧ chkProxy (Ex.X .py) Ex.c1 (.proxy 3 (.obj 1) Ex.c1) Ex.s0 = (.ok (.proxy 3 (.obj 1) Ex.c1), Ex.s0) :=
  ⟨rfl, rfl, rfl⟩

/-- **C06** The implementations differ exactly as `ProxySpec` says: an object whose
`__Security_checker__` is `None` is protected by its type's checker in Python and is a
ValueError in C; a lookup failing with another exception propagates in Python only. -/
theorem C06_implementations_differ :
    (∃ (W : World Unit), chkProxy ⟨W, .py, 0, 5, 0⟩ Ex.c1 (.obj 1) Ex.s0 =
        (.ok (.proxy 100 (.obj 1) (.checker 1 2 3)),
          { Ex.s0 with nextId := 101, trace := [.probed (.getattr (.obj 1) "__Security_checker__")] })
      ∧ (chkProxy ⟨W, .c, 0, 5, 0⟩ Ex.c1 (.obj 1) Ex.s0).1 = .err .valueError)
    ∧ (∃ (W : World Unit), (chkProxy ⟨W, .py, 0, 5, 0⟩ Ex.c1 (.obj 1) Ex.s0).1 = .err (.other 1)
      ∧ (chkProxy ⟨W, .c, 0, 5, 0⟩ Ex.c1 (.obj 1) Ex.s0).1 = .ok (.proxy 100 (.obj 1) (.checker 1 2 3))) :=
  ⟨⟨{ Ex.W with apply := fun _ s => (.ok .none, s) }, rfl, rfl⟩,
   ⟨{ Ex.W with apply := fun _ s => (.err (.other 1), s) }, rfl, rfl⟩⟩

/-! ## C09 ProxyFactory -/

/-- **C09** What `ProxyFactory(o)` without a checker does: `o` itself if it is a proxy; otherwise
own checker, else checker by type (Python's conventions in both implementations). -/
theorem C09_factory_spec (X : Ctx A) (o : Val) (s : St A) (r : Res Val × St A) :
    proxyFactory X o .none s = r ↔ ProxySpec true (getSC X o) (selectChecker X o) o s r := by
  by_cases hp : o.isProxy = true
  · have hp' := (isProxy_iff o).mp hp
    have hrun : proxyFactory X o .none s = (.ok o, s) := by
      obtain ⟨i, w, c, rfl⟩ := hp'
      rfl
    rw [hrun]
    constructor
    · rintro rfl; exact .already hp'
    · intro h; cases h <;> first | rfl | contradiction
  · have hv : ¬ IsProxy o := fun h => hp ((isProxy_iff o).mpr h)
    rw [← protectPy_iff X o hv s r]
    unfold proxyFactory
    rw [if_neg hp, if_pos rfl]

/-- **C09** `ProxyFactory(o)` and `ProxyFactory(o, c)` return `o` itself or a new proxy around
exactly `o`; a proxy is never wrapped again. -/
theorem C09_result (X : Ctx A) (o c : Val) (s : St A) (r : Val) (s' : St A)
    (h : proxyFactory X o c s = (.ok r, s')) :
    r = o ∨ (¬ IsProxy o ∧ ∃ id k, r = .proxy id o k ∧ k ≠ .none ∧ (c ≠ .none → k = c)) := by
  by_cases hc : c = .none
  · subst hc
    rcases proxySpec_result ((C09_factory_spec X o s _).mp h) with ⟨h, _⟩ | ⟨id, k, s1, h1, h2, h3, _⟩
    · exact .inl h
    · exact .inr ⟨h2, id, k, h1, h3, fun h => absurd rfl h⟩
  · by_cases hp : o.isProxy = true
    · obtain ⟨i, w, k, rfl⟩ := (isProxy_iff o).mp hp
      left
      unfold proxyFactory at h
      rw [if_pos hp] at h
      simp only [getChecker, run_bind, run_get, run_pure] at h
      rw [run_ite] at h
      split at h <;> cases h
      rfl
    · right
      refine ⟨fun h => hp ((isProxy_iff o).mpr h), ?_⟩
      unfold proxyFactory at h
      rw [if_neg hp, if_neg hc, run_newProxy _ _ _ hc] at h
      cases h
      exact ⟨_, _, rfl, hc, fun _ => rfl⟩

/-- **C09** Applying `ProxyFactory` to its own result returns the same object, in every later
state, whenever the result is a proxy (without a checker argument). -/
theorem C09_idempotent (X : Ctx A) (o c : Val) (s : St A) (r : Val) (s' : St A)
    (_h : proxyFactory X o c s = (.ok r, s')) (hr : IsProxy r) (t : St A) :
    proxyFactory X r .none t = (.ok r, t) :=
  (C09_factory_spec X r t _).mpr (.already hr)

/-- **C09** A result that is not a proxy is the object itself, so that applying the factory again
is the same call on the same object; for constants it has no effects and gives the same answer. -/
theorem C09_idempotent_bare (X : Ctx A) (o : Val) (s s' : St A) (r : Val)
    (h : proxyFactory X o .none s = (.ok r, s')) (hr : ¬ IsProxy r) :
    r = o ∧ (o.isBasic = true → s.reg.get? (.ty (typeOf X.W o)) = some .noProxy →
      s' = s ∧ proxyFactory X r .none s' = (.ok r, s')) := by
  have h1 : r = o := by
    rcases C09_result X o .none s r s' h with h | ⟨_, id, k, h, _⟩
    · exact h
    · exact absurd ⟨id, o, k, h⟩ hr
  refine ⟨h1, fun hb hreg => ?_⟩
  subst h1
  have hsc : getSC X r s = (.err (.attributeError "__Security_checker__"), s) := by
    cases r <;> simp [Val.isBasic] at hb <;> rfl
  have hsel : selectChecker X r s = (.ok .none, s) := by
    rw [selectChecker_eq, if_pos (by simp [regEntry, hreg])]
  have hrun : proxyFactory X r .none s = (.ok r, s) :=
    (C09_factory_spec X r s _).mpr (.absent hr hsc (fun _ => rfl) (.bare hsel))
  rw [hrun] at h
  cases h
  exact ⟨rfl, hrun⟩

/-- **C09** A proxy with another checker given: TypeError, nothing changes; with its own checker
given: the proxy itself. -/
theorem C09_no_swap (X : Ctx A) (id : Nat) (w k c : Val) (s : St A) (hc : c ≠ .none)
    (hpy : s.ovC id = none) :
    (c ≠ k → proxyFactory X (.proxy id w k) c s = (.err .typeError, s))
    ∧ proxyFactory X (.proxy id w k) k s = (.ok (.proxy id w k), s) := by
  have hck : proxyChecker X s id k = k := by
    unfold proxyChecker; rw [hpy]; cases X.impl <;> rfl
  constructor
  · intro h
    simp [proxyFactory, Val.isProxy, getChecker, run_bind, hck, hc, h]
  · simp [proxyFactory, Val.isProxy, getChecker, run_bind, hck]

example : proxyFactory (Ex.X .c) (.obj 1) Ex.c1 Ex.s0 = (.ok (.proxy 100 (.obj 1) Ex.c1), { Ex.s0 with nextId := 101 })
    ∧ (proxyFactory (Ex.X .c) (.proxy 100 (.obj 1) Ex.c1) (.checker 1 2 3) Ex.s0).1 = .err .typeError := ⟨rfl, rfl⟩

/-! ## C10 removeSecurityProxy -/

/-- Identifiers not yet handed out carry no re-assigned slots. -/
def FreshOv (s : St A) : Prop := ∀ i, s.nextId ≤ i → s.ovW i = none ∧ s.ovC i = none

theorem freshOv_keeps {W : World A} (hW : ∀ r s, FreshOv s → FreshOv (W.apply r s).2) : Keeps FreshOv W where
  apply := hW
  trace := fun _ _ h => h
  nextId := fun s h i hi => h i (by simp at hi; omega)

/-- **C10** `removeSecurityProxy(ProxyFactory(x, c))` is `x`, and `getChecker` of the new proxy is
the checker it was made with, for every object, checker and state, in both implementations; for
compiled proxies also in every later state.  (In pure Python slots can be re-assigned later,
see C15 and C17.) -/
theorem C10_round_trip (X : Ctx A) (x c : Val) (hx : ¬ IsProxy x) (s : St A) (r : Val) (s' : St A)
    (hW : ∀ r s, FreshOv s → FreshOv (X.W.apply r s).2) (hs : FreshOv s)
    (h : proxyFactory X x c s = (.ok r, s')) :
    removeProxy X s' r = x
    ∧ (∀ id w k, r = .proxy id w k → getChecker X r s' = (.ok k, s'))
    ∧ (X.impl = .c → ∀ t, removeProxy X t r = x) := by
  rcases C09_result X x c s r s' h with h1 | ⟨_, id, k, h1, hk, _⟩
  · subst h1
    have : ∀ t, removeProxy X t r = r := by
      intro t
      cases r with
      | proxy i w c => exact absurd ⟨_, _, _, rfl⟩ hx
      | _ => rfl
    refine ⟨this _, ?_, fun _ => this⟩
    rintro id w k rfl
    exact absurd ⟨_, _, _, rfl⟩ hx
  · subst h1
    -- the identifier was fresh when the proxy was made
    have hfresh : s'.ovW id = none ∧ s'.ovC id = none := by
      by_cases hc : c = .none
      · subst hc
        have hsp := proxySpec_result ((C09_factory_spec X x s _).mp h)
        rcases hsp with ⟨h2, _⟩ | ⟨id', k', s1, h2, _, _, hid, hs', hor⟩
        · exact absurd ⟨_, _, _, h2.symm⟩ hx
        · cases h2
          subst hs'
          -- `s1` is the state after the lookup and the selection
          have hs1 : FreshOv s1 := by
            have hsp := (C09_factory_spec X x s _).mp h
            have hk := freshOv_keeps hW
            have hget := Pres.getSC (X := X) hk x s hs
            cases hsp with
            | own _ h1 h2 h3 =>
              rw [h1] at hget
              simp only [Fresh, Prod.mk.injEq, Res.ok.injEq, Val.proxy.injEq] at h3
              intro i hi
              have := hget i
              obtain ⟨⟨h4, _⟩, h5⟩ := h3
              have e1 := congrArg St.ovW h5
              have e2 := congrArg St.ovC h5
              simp only at e1 e2
              rw [e1, e2]; exact this (by rw [← h4, ← hid]; exact hi)
            | absent _ h1 _ hb =>
              rw [h1] at hget
              cases hb with
              | wrap h2 _ h3 =>
                have hsel := Pres.selectChecker (X := X) hk x _ hget
                rw [h2] at hsel
                simp only [Fresh, Prod.mk.injEq, Res.ok.injEq, Val.proxy.injEq] at h3
                obtain ⟨⟨h4, _⟩, h5⟩ := h3
                have e1 := congrArg St.ovW h5
                have e2 := congrArg St.ovC h5
                simp only at e1 e2
                intro i hi
                rw [e1, e2]; exact hsel i (by rw [← h4, ← hid]; exact hi)
            | ownNone _ h1 _ hb =>
              rw [h1] at hget
              cases hb with
              | wrap h2 _ h3 =>
                have hsel := Pres.selectChecker (X := X) hk x _ hget
                rw [h2] at hsel
                simp only [Fresh, Prod.mk.injEq, Res.ok.injEq, Val.proxy.injEq] at h3
                obtain ⟨⟨h4, _⟩, h5⟩ := h3
                have e1 := congrArg St.ovW h5
                have e2 := congrArg St.ovC h5
                simp only at e1 e2
                intro i hi
                rw [e1, e2]; exact hsel i (by rw [← h4, ← hid]; exact hi)
          exact hs1 id (by omega)
      · have hp : x.isProxy = false := (not_isProxy_iff x).mpr hx
        unfold proxyFactory at h
        rw [if_neg (by simp [hp]), if_neg hc, run_newProxy _ _ _ hc] at h
        cases h
        exact hs _ (Nat.le_refl _)
    refine ⟨?_, ?_, ?_⟩
    · unfold removeProxy proxyWrapped
      cases X.impl <;> simp [hfresh.1]
    · rintro id' w' k' hr
      cases hr
      simp only [getChecker, run_bind, run_get, run_pure]
      unfold proxyChecker
      cases X.impl <;> simp [hfresh.2]
    · intro hc t
      simp [removeProxy, proxyWrapped, hc]

/-- **C10** `removeSecurityProxy` is the identity on everything that is not a security proxy. -/
theorem C10_identity (X : Ctx A) (v : Val) (hv : ¬ IsProxy v) (s : St A) : removeProxy X s v = v := by
  cases v with
  | proxy i w c => exact absurd ⟨_, _, _, rfl⟩ hv
  | _ => rfl

example : FreshOv Ex.s0 ∧ (∀ r s, FreshOv s → FreshOv ((Ex.X .py).W.apply r s).2)
    ∧ removeProxy (Ex.X .py) Ex.s0 (.proxy 100 (.obj 1) Ex.c1) = .obj 1 := by
  refine ⟨fun _ _ => ⟨rfl, rfl⟩, ?_, rfl⟩
  intro r s h
  have : ((Ex.X .py).W.apply r s).2 = s := by
    simp only [Ex.X, Ex.W]; split <;> rfl
  rw [this]; exact h

/-! ## C20 isinstance -/

/-- **C20** `zope.security.proxy.isinstance` on a protected object answers what the builtin answers
on the object itself, for every checker and policy; it performs no check, raises nothing and
changes nothing. -/
theorem C20_isinstance (X : Ctx A) (x c : Val) (hx : ¬ IsProxy x) (cls : String) (s : St A) (r : Val) (s' : St A)
    (hW : ∀ r s, FreshOv s → FreshOv (X.W.apply r s).2) (hs : FreshOv s)
    (h : proxyFactory X x c s = (.ok r, s')) :
    secIsinstance X r cls s' = (.ok (X.W.isInst x cls), s')
    ∧ ∀ t, secIsinstance X x cls t = (.ok (X.W.isInst x cls), t) := by
  constructor
  · simp only [secIsinstance, run_bind, run_get, run_pure, (C10_round_trip X x c hx s r s' hW hs h).1]
  · intro t
    simp only [secIsinstance, run_bind, run_get, run_pure, C10_identity X x hx t]

example : secIsinstance (Ex.X .c) (.proxy 100 (.obj 1) Ex.c1) "Thing" Ex.s0 = (.ok true, Ex.s0)
    ∧ secIsinstance (Ex.X .c) (.proxy 100 (.obj 1) Ex.c1) "Other" Ex.s0 = (.ok false, Ex.s0) := ⟨rfl, rfl⟩

end ZS.Props
