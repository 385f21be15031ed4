import Verif.Model.Adapter
import Verif.Spec.Adapter
import Verif.Props.Deco
import Verif.Props.Confine

/-!
# C43 Trusted and untrusted adapters
-/

namespace ZS.Props
open ZS.Spec
variable {A : Type}

theorem bared_iff (X : Ctx A) (s : St A) (v v' : Val) : Bared X.impl s v v' ↔ removeProxy X s v = v' := by
  unfold Bared
  cases v with
  | proxy i w c =>
    simp only [removeProxy, proxyWrapped, current]
    cases X.impl <;> simp
  | _ => simp [current, removeProxy, eq_comm]

theorem allBared_iff (X : Ctx A) (s : St A) (l l' : List Val) :
    AllBared X.impl s l l' ↔ l.map (removeProxy X s) = l' := by
  induction l generalizing l' with
  | nil => exact ⟨by intro h; cases h; rfl, by rintro rfl; exact .nil⟩
  | cons v l ih =>
    constructor
    · intro h
      cases h with
      | cons h1 h2 => rw [List.map_cons, (bared_iff X s _ _).mp h1, (ih _).mp h2]
    · rintro rfl
      exact .cons ((bared_iff X s _ _).mpr rfl) ((ih _).mpr rfl)

/-- Writing `__parent__` as an operation with a result. -/
def writeParentV (X : Ctx A) (v x : Val) : M A Val := do
  writeParent X v x
  pure .none

theorem adopt_iff (X : Ctx A) (wrap : Bool) (a c : Val) (s : St A) (r : Res Val × St A) :
    adopt X a c s = r ↔ Located true wrap (readParent X a) (writeParentV X a c) a c s r := by
  unfold adopt
  rcases h : readParent X a s with ⟨r1, s1⟩
  cases r1 with
  | err e =>
    rw [bind_err h]
    exact ⟨by rintro rfl; exact .readFails rfl h, by intro h'; cases h' <;> simp_all⟩
  | diverge =>
    rw [bind_diverge h]
    exact ⟨by rintro rfl; exact .readHangs rfl h, by intro h'; cases h' <;> simp_all⟩
  | ok p =>
    rw [bind_ok h]
    by_cases hp : p = .none
    · subst hp
      rw [if_pos rfl]
      rcases hw : writeParent X a c s1 with ⟨r2, s2⟩
      have hwv : writeParentV X a c s1 = (match r2 with | .ok _ => .ok Val.none | .err e => .err e | .diverge => .diverge, s2) := by
        unfold writeParentV
        cases r2 with
        | ok u => rw [bind_ok hw]; rfl
        | err e => rw [bind_err hw]
        | diverge => rw [bind_diverge hw]
      cases r2 with
      | ok u =>
        rw [bind_ok hw]
        exact ⟨by rintro rfl; exact .adopted rfl h hwv, by intro h'; cases h' <;> simp_all⟩
      | err e =>
        rw [bind_err hw]
        exact ⟨by rintro rfl; exact .writeFails rfl h hwv, by intro h'; cases h' <;> simp_all⟩
      | diverge =>
        rw [bind_diverge hw]
        exact ⟨by rintro rfl; exact .writeHangs rfl h hwv, by intro h'; cases h' <;> simp_all⟩
    · rw [if_neg hp]
      exact ⟨by rintro rfl; exact .hasParent rfl h hp, by intro h'; cases h' <;> simp_all⟩

/-- `assertLocation`: an adapter that is not located is put into a location proxy whose parent is the
context; a located one without parent gets it; any other is returned as it is. -/
theorem C43_assertLocation (X : Ctx A) (a c : Val) (s : St A) (r : Res Val × St A) :
    assertLocation X a c s = r
      ↔ Located (X.W.isLoc a) true (readParent X a) (writeParentV X a c) a c s r := by
  unfold assertLocation
  by_cases h : X.W.isLoc a = true
  · rw [if_pos h, h]
    exact adopt_iff X true a c s r
  · have h' : X.W.isLoc a = false := by simpa using h
    have hrun : (do
        let id ← newLocationProxy a
        setParent id c
        Pure.pure (Val.deco id locationProxy a) : M A Val) s = (.ok (.deco s.nextId "LocationProxy" a),
        { s with nextId := s.nextId + 1, parents := fun k => if k = s.nextId then c else s.parents k }) := by
      show (Res.ok (Val.deco s.nextId locationProxy a), _) = _
      refine Prod.ext rfl ?_
      simp only [locationProxy]
      congr 1
      funext k
      split <;> simp_all
    rw [if_neg h, h', hrun]
    exact ⟨by rintro rfl; exact .wrapped rfl rfl, by intro h'; cases h' <;> simp_all⟩

theorem customizeUnprotected_iff (X : Ctx A) (a c : Val) (s : St A) (r : Res Val × St A) :
    customizeUnprotected X a c s = r
      ↔ Located (X.W.isLoc a) false (readParent X a) (writeParentV X a c) a c s r := by
  unfold customizeUnprotected
  by_cases h : X.W.isLoc a = true
  · rw [if_pos h, h]
    exact adopt_iff X false a c s r
  · have h' : X.W.isLoc a = false := by simpa using h
    rw [if_neg h, h']
    exact ⟨by rintro rfl; exact .plain rfl rfl, by intro h'; cases h' <;> simp_all⟩

theorem customizeProtected_iff (X : Ctx A) (l : Bool) (a c : Val) (s : St A) (r : Res Val × St A) :
    customizeProtected X l a c s = r
      ↔ Located (X.W.isLoc a) l (readParent X a) (writeParentV X a c) a c s r := by
  unfold customizeProtected
  cases l
  · exact customizeUnprotected_iff X a c s r
  · exact C43_assertLocation X a c s r

theorem bind_pure_run {α : Type} (x : M A α) : (x >>= fun b => Pure.pure b) = x := by
  funext t
  rw [run_bind]
  rcases x t with ⟨r, t'⟩
  cases r <;> rfl

theorem adapts_iff (args : List Val) (factory : M A Val) (pl : Val → Val → M A Val) (pr : Val → M A Val)
    (place : Val → Val → St A → Res Val × St A → Prop) (protect : Val → St A → Res Val × St A → Prop)
    (hpl : ∀ a c s r, pl a c s = r ↔ place a c s r) (hpr : ∀ b s r, pr b s = r ↔ protect b s r) (s : St A) (r : Res Val × St A) :
    (do
      let a ← factory
      let c ← firstArg args
      let b ← pl a c
      pr b : M A Val) s = r ↔ Adapts args factory place protect s r := by
  rcases h : factory s with ⟨r1, s1⟩
  cases r1 with
  | err e =>
    rw [bind_err h]
    exact ⟨by rintro rfl; exact .fails h, by intro h'; cases h' <;> simp_all⟩
  | diverge =>
    rw [bind_diverge h]
    exact ⟨by rintro rfl; exact .hangs h, by intro h'; cases h' <;> simp_all⟩
  | ok a =>
    rw [bind_ok h]
    cases args with
    | nil =>
      rw [bind_err (show firstArg [] s1 = (.err .indexError, s1) from rfl)]
      exact ⟨by rintro rfl; exact .noArgs rfl h, by intro h'; cases h' <;> simp_all⟩
    | cons c rest =>
      rw [bind_ok (show firstArg (c :: rest) s1 = (.ok c, s1) from rfl)]
      rcases hp : pl a c s1 with ⟨r2, s2⟩
      have hp' := (hpl a c s1 _).mp hp
      cases r2 with
      | err e =>
        rw [bind_err hp]
        refine ⟨by rintro rfl; exact .placeFails rfl h hp', ?_⟩
        intro h'
        cases h' with
        | adapted h0 h1 h2 => cases h0; rw [h] at h1; cases h1; rw [← hpl, hp] at h2; cases h2
        | placeFails h0 h1 h2 => cases h0; rw [h] at h1; cases h1; rw [← hpl, hp] at h2; cases h2; rfl
        | placeHangs h0 h1 h2 => cases h0; rw [h] at h1; cases h1; rw [← hpl, hp] at h2; cases h2
        | noArgs h0 => cases h0
        | fails h1 => rw [h] at h1; cases h1
        | hangs h1 => rw [h] at h1; cases h1
      | diverge =>
        rw [bind_diverge hp]
        refine ⟨by rintro rfl; exact .placeHangs rfl h hp', ?_⟩
        intro h'
        cases h' with
        | adapted h0 h1 h2 => cases h0; rw [h] at h1; cases h1; rw [← hpl, hp] at h2; cases h2
        | placeFails h0 h1 h2 => cases h0; rw [h] at h1; cases h1; rw [← hpl, hp] at h2; cases h2
        | placeHangs h0 h1 h2 => cases h0; rw [h] at h1; cases h1; rw [← hpl, hp] at h2; cases h2; rfl
        | noArgs h0 => cases h0
        | fails h1 => rw [h] at h1; cases h1
        | hangs h1 => rw [h] at h1; cases h1
      | ok b =>
        rw [bind_ok hp]
        refine ⟨fun hr => .adapted rfl h hp' ((hpr _ _ _).mp hr), ?_⟩
        intro h'
        cases h' with
        | adapted h0 h1 h2 h3 => cases h0; rw [h] at h1; cases h1; rw [← hpl, hp] at h2; cases h2; exact (hpr _ _ _).mpr h3
        | placeFails h0 h1 h2 => cases h0; rw [h] at h1; cases h1; rw [← hpl, hp] at h2; cases h2
        | placeHangs h0 h1 h2 => cases h0; rw [h] at h1; cases h1; rw [← hpl, hp] at h2; cases h2
        | noArgs h0 => cases h0
        | fails h1 => rw [h] at h1; cases h1
        | hangs h1 => rw [h] at h1; cases h1

/-- **C43** Called with a proxied object among its arguments, a trusted adapter factory calls the adapted
factory on the bared arguments (one proxy removed from each), places the result relative to the first
of them and returns it protected like `ProxyFactory` does. -/
theorem C43_proxied (X : Ctx A) (locating : Bool) (f : Val) (args raw : List Val) (s : St A)
    (hraw : AllBared X.impl s args raw) (hne : raw ≠ args) (r : Res Val × St A) :
    trustedCall X locating f args s = r
      ↔ Adapts raw (perform X (.call f raw))
          (fun a c => Located (X.W.isLoc a) locating (readParent X a) (writeParentV X a c) a c)
          (fun b s => ProxySpec true (getSC X b) (selectChecker X b) b s) s r := by
  rw [allBared_iff] at hraw
  subst hraw
  have hex : ∃ a ∈ args, removeProxy X s a ≠ a := by
    by_cases h : ∃ a ∈ args, removeProxy X s a ≠ a
    · exact h
    · exact absurd ((List.map_congr_left (g := id) (fun a ha => by
        by_cases h' : removeProxy X s a = a
        · exact h'
        · exact absurd ⟨a, ha, h'⟩ h)).trans (List.map_id _)) hne
  have : trustedCall X locating f args s = (do
      let adapter ← perform X (.call f (args.map (removeProxy X s)))
      let context ← firstArg (args.map (removeProxy X s))
      let adapter ← customizeProtected X locating adapter context
      proxyFactory X adapter .none : M A Val) s := by
    unfold trustedCall
    rw [bind_ok (run_get s), if_pos hex]
    rfl
  rw [this]
  exact adapts_iff _ _ _ _ _ _ (customizeProtected_iff X locating) (fun b s r => C09_factory_spec X b s r) s r

/-- **C43** Called with unproxied objects only, it calls the adapted factory on them and returns the result
itself, giving it the first object as parent if it is located and has none. -/
theorem C43_bare (X : Ctx A) (locating : Bool) (f : Val) (args : List Val) (s : St A)
    (hraw : AllBared X.impl s args args) (r : Res Val × St A) :
    trustedCall X locating f args s = r
      ↔ Adapts args (perform X (.call f args))
          (fun a c => Located (X.W.isLoc a) false (readParent X a) (writeParentV X a c) a c)
          (fun b s r => r = (.ok b, s)) s r := by
  rw [allBared_iff] at hraw
  have hex : ¬ ∃ a ∈ args, removeProxy X s a ≠ a := by
    rintro ⟨a, ha, h⟩
    have : ∀ l : List Val, l.map (removeProxy X s) = l → a ∈ l → removeProxy X s a = a := by
      intro l
      induction l with
      | nil => intro _ h; cases h
      | cons b l ih =>
        intro h1 h2
        simp only [List.map_cons, List.cons.injEq] at h1
        rcases List.mem_cons.mp h2 with rfl | h2
        · exact h1.1
        · exact ih h1.2 h2
    exact h (this args hraw ha)
  have : trustedCall X locating f args s = (do
      let adapter ← perform X (.call f args)
      let context ← firstArg args
      customizeUnprotected X adapter context >>= fun b => Pure.pure b : M A Val) s := by
    unfold trustedCall
    rw [bind_ok (run_get s), if_neg hex]
    unfold trustedBare
    simp only [bind_pure_run]
  rw [this]
  exact adapts_iff _ _ _ _ _ _ (customizeUnprotected_iff X) (fun b s r => ⟨fun h => h.symm, fun h => h.symm⟩) s r

/-- **C43** An untrusted adapter factory calls the adapted factory on its arguments as they are. -/
theorem C43_untrusted (X : Ctx A) (f : Val) (args : List Val) (s : St A) (r : Res Val × St A) :
    untrustedCall X f args s = r
      ↔ Adapts args (perform X (.call f args))
          (fun a c => Located (X.W.isLoc a) true (readParent X a) (writeParentV X a c) a c)
          (fun b s r => r = (.ok b, s)) s r := by
  have : untrustedCall X f args s = (do
      let adapter ← perform X (.call f args)
      let context ← firstArg args
      assertLocation X adapter context >>= fun b => Pure.pure b : M A Val) s := by
    unfold untrustedCall
    simp only [bind_pure_run]
  rw [this]
  exact adapts_iff _ _ _ _ _ _ (C43_assertLocation X) (fun b s r => ⟨fun h => h.symm, fun h => h.symm⟩) s r

/-- **C43** The caller of a trusted adapter factory with a proxied argument never receives the raw adapter:
what is returned is a security proxy, or something that the registry decided not to protect. -/
theorem C43_protected (X : Ctx A) (locating : Bool) (f : Val) (args raw : List Val) (s : St A)
    (hraw : AllBared X.impl s args raw) (hne : raw ≠ args) (v : Val) (s' : St A)
    (h : trustedCall X locating f args s = (.ok v, s')) : IsProxy v ∨ ∃ t, selectChecker X v t = (.ok .none, s') := by
  have hA := (C43_proxied X locating f args raw s hraw hne _).mp h
  cases hA with
  | adapted h0 h1 h2 h3 =>
    generalize hr : ((.ok v, s') : Res Val × St A) = r at h3
    have bt : ∀ {v' t}, ByType (selectChecker X v') v' t r → IsProxy v ∨ ∃ t, selectChecker X v t = (.ok .none, s') := by
      intro v' t hb
      cases hb with
      | bare h => cases hr; exact .inr ⟨_, h⟩
      | wrap h h' h'' => unfold Fresh at h''; rw [← hr] at h''; cases h''; exact .inl ⟨_, _, _, rfl⟩
      | fails h => cases hr
      | hangs h => cases hr
    cases h3 with
    | already h => cases hr; exact .inl h
    | own _ _ _ h => unfold Fresh at h; rw [← hr] at h; cases h; exact .inl ⟨_, _, _, rfl⟩
    | absent _ _ _ h => exact bt h
    | ownFails => cases hr
    | ownNone _ _ _ h => exact bt h
    | ownNoneRefused => cases hr
    | ownHangs => cases hr

/-- **C43** A located adapter whose factory answers `None` (zope.interface's way of saying "cannot adapt")
is not `None` any more: it comes back as a location proxy of `None`. -/
theorem C43_none_becomes_something (X : Ctx A) (f c : Val) (rest : List Val) (s s1 : St A)
    (hf : perform X (.call f (c :: rest)) s = (.ok .none, s1)) (hl : X.W.isLoc .none = false) :
    ∃ id s2, untrustedCall X f (c :: rest) s = (.ok (.deco id "LocationProxy" .none), s2) :=
  ⟨_, _, (C43_untrusted X f (c :: rest) s _).mpr (.adapted rfl hf (.wrapped hl rfl) rfl)⟩

/-- Calling a trusted factory in the example world: the proxied object 1 reaches the factory bared, its
result (object 7) comes back as a located, proxied object with object 1 as parent. -/
def sAd : St Unit := { Ex.s1 none with reg := [(.ty "Thing", Ex.c1)] }

example : ∀ impl, let r := trustedCall (Ex.X impl) true (.fn 9) [.proxy 70 (.obj 1) Ex.c1, .int 3] sAd
    (∃ i c, r.1 = .ok (.proxy i (.deco 100 "LocationProxy" (.obj 7)) c))
    ∧ r.2.parents 100 = .obj 1
    ∧ .performed (.call (.fn 9) [.obj 1, .int 3]) ∈ r.2.trace := by
  intro impl; cases impl <;> exact ⟨⟨_, _, rfl⟩, rfl, by decide⟩

example : AllBared (.py) sAd [.proxy 70 (.obj 1) Ex.c1, .int 3] [.obj 1, .int 3] :=
  .cons (.inl ⟨_, rfl⟩) (.cons (.inr ⟨rfl, rfl⟩) .nil)

example : ∀ impl, ∃ s', trustedCall (Ex.X impl) true (.fn 9) [.obj 1, .int 3] sAd = (.ok (.obj 7), s') := by
  intro impl; cases impl <;> exact ⟨_, rfl⟩

example : ∀ impl, AllBared impl sAd [.obj 1, .int 3] [.obj 1, .int 3] := by
  intro impl; exact .cons (.inr ⟨rfl, rfl⟩) (.cons (.inr ⟨rfl, rfl⟩) .nil)

/-- An untrusted factory hands the proxy on. -/
example : ∀ impl, ∃ s', untrustedCall (Ex.X impl) (.fn 9) [.proxy 70 (.obj 1) Ex.c1] sAd
      = (.ok (.deco 100 "LocationProxy" (.obj 7)), s') ∧ s'.parents 100 = .proxy 70 (.obj 1) Ex.c1 := by
  intro impl; cases impl <;> exact ⟨_, rfl, rfl⟩

end ZS.Props
