import Verif.Lemmas.PyAdaptRun
import Verif.Props.Adapter
import Verif.Props.Testing

/-!
# C83: the source of adapters, decorators and testing does what the model says
-/

namespace ZS.Props
open ZS ZS.PyC ZS.Src ZS.Spec
variable {A β : Type}
set_option maxHeartbeats 1000000

/-! ## adapter.py -/

theorem adapt_level (X : Ctx A) (ms : Methods) (f : Val) (k : Nat) : ∃ go, adaptLang X ms f k = adaptWith X ms f go := by
  cases k <;> exact ⟨_, rfl⟩

/-- **C83** `assertLocation` (adapter.py:24-45). -/
theorem C83_assertLocation (X : Ctx A) (ms : Methods) (f : Val) (k : Nat) (x y : Val) :
    run (adaptLang X ms f k) Adapter.assertLocation [.v x, .v y] = val (assertLocation X x y) := by
  apply ext_fork
  intro s
  unfold assertLocation adopt
  obtain ⟨go, hl⟩ := adapt_level X ms f k
  rw [hl]
  by_cases h : X.W.isLoc x = true
  · asteps [Adapter.assertLocation, h]
    refine fork_ext (fun p s' _ => ?_) (fun e s' _ => ?_)
    · by_cases hp : p = .none
      · asteps [hp]
        refine fork_ext (fun _ _ _ => ?_) (fun _ _ _ => ?_) <;> asteps
      · asteps [hp]
    · asteps
  · have hw (i : Nat) : writeParent X (.deco i locationProxy x) y = setParent i y := by simp [writeParent]
    asteps [Adapter.assertLocation, h]
    refine fork_ext (fun i s' _ => ?_) (fun e s' _ => ?_)
    · asteps [hw]
      refine fork_ext (fun _ _ _ => ?_) (fun _ _ _ => ?_) <;> asteps
    · asteps

/-- **C83** `_customizeUnprotected` (adapter.py:75-78). -/
theorem C83_unprotected (X : Ctx A) (ms : Methods) (f : Val) (k : Nat) (x y : Val) :
    run (adaptLang X ms f k) Adapter.LocatingTrustedAdapterFactory._customizeUnprotected [.sym "self", .v x, .v y]
      = val (customizeUnprotected X x y) := by
  apply ext_fork
  intro s
  unfold customizeUnprotected adopt
  obtain ⟨go, hl⟩ := adapt_level X ms f k
  rw [hl]
  by_cases h : X.W.isLoc x = true
  · asteps [Adapter.LocatingTrustedAdapterFactory._customizeUnprotected, h]
    refine fork_ext (fun p s' _ => ?_) (fun e s' _ => ?_)
    · by_cases hp : p = .none
      · asteps [hp]
        refine fork_ext (fun _ _ _ => ?_) (fun _ _ _ => ?_) <;> asteps
      · asteps [hp]
    · asteps
  · asteps [Adapter.LocatingTrustedAdapterFactory._customizeUnprotected, h]

/-- **C83** `_customizeProtected` of either class (adapter.py:72-73, 108-109), found as the method of a factory of that class. -/
theorem C83_protected (X : Ctx A) (locating : Bool) (f : Val) (k : Nat) (x y : Val) :
    dispatch (trustedMethods locating) (fun g l => run (adaptLang X (trustedMethods locating) f (k + 1)) g l) "_customizeProtected" [.v x, .v y]
      = val (customizeProtected X locating x y) := by
  apply ext_fork
  intro s
  unfold customizeProtected
  unfold dispatch
  cases locating
  · have hm : findMethod (trustedMethods false) "_customizeProtected" = some Adapter.TrustedAdapterFactory._customizeProtected := rfl
    have hu : findMethod (trustedMethods false) "_customizeUnprotected"
      = some Adapter.LocatingTrustedAdapterFactory._customizeUnprotected := rfl
    simp only [hm]
    rw [adaptLang]
    asteps [Adapter.TrustedAdapterFactory._customizeProtected, dispatch, hu, C83_unprotected]
    refine fork_ext (fun _ _ _ => ?_) (fun _ _ _ => ?_) <;> asteps
  · have hm : findMethod (trustedMethods true) "_customizeProtected"
      = some Adapter.LocatingTrustedAdapterFactory._customizeProtected := rfl
    simp only [hm]
    rw [adaptLang]
    asteps [Adapter.LocatingTrustedAdapterFactory._customizeProtected]
    refine fork_ext (fun _ _ _ => ?_) (fun _ _ _ => ?_) <;> asteps

theorem find_unprotected (locating : Bool) : findMethod (trustedMethods locating) "_customizeUnprotected"
    = some Adapter.LocatingTrustedAdapterFactory._customizeUnprotected := by cases locating <;> rfl

theorem collect_removed (X : Ctx A) (ms : Methods) (f : Val) (go : Fn → List PV → M A PV) (s : St A) (env : Env) (l : List Val) :
    collect (pick (adaptWith X ms f go) (.call (.glo "removeSecurityProxy") [.loc "x"]) "x" .true env) (l.map .v) s =
    (.ok ((l.map (removeProxy X s)).map .v), s) := by
  induction l with
  | nil => rfl
  | cons p ps ih =>
    refine fork_run ?_
    rw [List.map_cons, collect]
    asteps [pick]
    unfold fork
    rw [ih]
    rfl

theorem fork_collect_removed (X : Ctx A) (ms : Methods) (f : Val) (go : Fn → List PV → M A PV) (env : Env) (l : List Val)
    (k : List PV → St A → Res β × St A) (h : Exn → St A → Res β × St A) (s : St A) :
    fork (collect (pick (adaptWith X ms f go) (.call (.glo "removeSecurityProxy") [.loc "x"]) "x" .true env) (l.map .v)) k h s =
    k ((l.map (removeProxy X s)).map .v) s := by
  unfold fork
  rw [collect_removed]

theorem first_list (l : List Val) : (agetitem (.list (l.map .v)) (.v (.int 0)) : M A PV) = val (firstArg l) := by cases l <;> rfl
theorem first_tuple (l : List Val) : (agetitem (.tuple (l.map .v)) (.v (.int 0)) : M A PV) = val (firstArg l) := by cases l <;> rfl

/-- The body of the loop in `__call__`. -/
abbrev callBody : List Stmt :=
  [.if (.cmp .isNot (.call (.glo "removeSecurityProxy") [.loc "arg"]) (.loc "arg"))
    [.assign (.loc "args") (.comp (.call (.glo "removeSecurityProxy") [.loc "x"]) "x" (.loc "args") (.true)),
     .assign (.loc "adapter") (.call (.attr (.loc "self") "factory") [.star (.loc "args")]),
     .assign (.loc "adapter") (.call (.attr (.loc "self") "_customizeProtected") [.loc "adapter", .sub (.loc "args") (.num (0))]),
     .ret (.call (.glo "ProxyFactory") [.loc "adapter"])]
    []]

/-- What follows it. -/
abbrev callTail : List Stmt :=
  [.assign (.loc "adapter") (.call (.attr (.loc "self") "factory") [.star (.loc "args")]),
   .assign (.loc "adapter") (.call (.attr (.loc "self") "_customizeUnprotected") [.loc "adapter", .sub (.loc "args") (.num (0))]),
   .ret (.loc "adapter")]

theorem call_loop (X : Ctx A) (locating : Bool) (f : Val) (k : Nat) (args l : List Val) (env : Env)
    (ha : env.get? "args" = some (.tuple (args.map .v))) (hs : env.get? "self" = some (.sym "self"))
    {kf : Flow → St A → Res β × St A} {kr : PV → St A → Res β × St A} {h : Exn → St A → Res β × St A} {s : St A}
    (hr : ∀ x e s, kf (.ret x e) s = kr x s) (hx : ∀ x e s, kf (.exc x e) s = h x s) :
    if ∃ a ∈ l, removeProxy X s a ≠ a then
      fork (forLoop (assign (adaptLang X (trustedMethods locating) f (k + 2)) (.loc "arg"))
        (fun env => execs (adaptLang X (trustedMethods locating) f (k + 2)) callBody none env) (l.map .v) env) kf h s
      = fork (val (trustedProtected X locating f args)) kr h s
    else ∃ env' : Env, env'.get? "args" = some (.tuple (args.map .v)) ∧ env'.get? "self" = some (.sym "self") ∧
      fork (forLoop (assign (adaptLang X (trustedMethods locating) f (k + 2)) (.loc "arg"))
        (fun env => execs (adaptLang X (trustedMethods locating) f (k + 2)) callBody none env) (l.map .v) env) kf h s
      = kf (.next env') s := by
  induction l generalizing env with
  | nil =>
    rw [if_neg (by simp)]
    exact ⟨env, ha, hs, by rw [List.map_nil, fl_nil]⟩
  | cons a l ih =>
    have ha' : Env.get? (env.put "arg" (.v a)) "args" = some (.tuple (args.map .v)) := by simpa [Env.get?, Env.put] using ha
    have hs' : Env.get? (env.put "arg" (.v a)) "self" = some (.sym "self") := by simpa [Env.get?, Env.put] using hs
    by_cases hd : removeProxy X s a = a
    · have hstep : fork (forLoop (assign (adaptLang X (trustedMethods locating) f (k + 2)) (.loc "arg"))
          (fun env => execs (adaptLang X (trustedMethods locating) f (k + 2)) callBody none env) ((a :: l).map .v) env) kf h s
        = fork (forLoop (assign (adaptLang X (trustedMethods locating) f (k + 2)) (.loc "arg"))
          (fun env => execs (adaptLang X (trustedMethods locating) f (k + 2)) callBody none env) (l.map .v) (env.put "arg" (.v a))) kf h s := by
        rw [List.map_cons, fl_cons, adaptLang]
        asteps [hd]
      rw [hstep]
      have hc : (∃ b ∈ a :: l, removeProxy X s b ≠ b) ↔ ∃ b ∈ l, removeProxy X s b ≠ b := by simp [hd]
      simp only [hc]
      exact ih _ ha' hs'
    · rw [if_pos ⟨a, by simp, hd⟩, List.map_cons, fl_cons]
      unfold trustedProtected
      rw [adaptLang]
      asteps [hd, hs, ha]
      rw [fork_collect_removed]
      asteps [hs, List.append_nil]
      refine fork_ext (fun b s1 _ => ?_) (fun e s1 _ => ?_)
      · asteps [hs, first_list]
        refine fork_ext (fun c s2 _ => ?_) (fun e s2 _ => ?_)
        · asteps
          rw [C83_protected]
          asteps
          refine fork_ext (fun d s3 _ => ?_) (fun e s3 _ => ?_)
          · asteps
            refine fork_ext (fun r s4 _ => ?_) (fun e s4 _ => ?_)
            · asteps [im_ret]
              exact hr _ _ _
            · asteps [im_exc]
              exact hx _ _ _
          · asteps [im_exc]
            exact hx _ _ _
        · asteps [im_exc]
          exact hx _ _ _
      · asteps [im_exc]
        exact hx _ _ _

/-- **C83** `LocatingTrustedAdapterFactory.__call__` and `TrustedAdapterFactory.__call__` (adapter.py:80-90), with every method the factory
calls on itself run from the source of its class. -/
theorem C83_trusted (X : Ctx A) (locating : Bool) (f : Val) (args : List Val) :
    callFactoryObject X (trustedMethods locating) f args = val (trustedCall X locating f args) := by
  apply ext_fork
  intro s
  have hm : findMethod (trustedMethods locating) "__call__" = some Adapter.LocatingTrustedAdapterFactory.__call__ := by
    cases locating <;> rfl
  unfold callFactoryObject dispatch
  simp only [hm]
  have hl := @call_loop A PV X locating f 0 args args [("args", .tuple (args.map .v)), ("self", .sym "self")] rfl rfl
    (fun g s => fork (afterStmt (adaptLang X (trustedMethods locating) f 2) callTail none g) (leave okK errK) errK s)
    okK errK s (fun _ _ _ => rfl) (fun _ _ _ => rfl)
  rw [run_eq, show Adapter.LocatingTrustedAdapterFactory.__call__.params = [("self", none)] from rfl,
    show Adapter.LocatingTrustedAdapterFactory.__call__.body = .for (.loc "arg") (.loc "args") callBody :: callTail from rfl, fork_bp_nil]
  have hb : bindParams (adaptLang X (trustedMethods locating) f 2) Adapter.LocatingTrustedAdapterFactory.__call__ [] (args.map .v) []
      (Env.put [] "self" (.sym "self")) = pure [("args", .tuple (args.map .v)), ("self", .sym "self")] := by
    cases args <;> rfl
  rw [hb, fork_pure, es_cons, ex_for]
  unfold trustedCall
  by_cases hd : ∃ a ∈ args, removeProxy X s a ≠ a
  · rw [if_pos hd] at hl
    rw [adaptLang] at hl ⊢
    asteps [hd]
    refine hl.trans ?_
    asteps
  · rw [if_neg hd] at hl
    obtain ⟨env', h1, h2, hl⟩ := hl
    unfold trustedBare
    rw [adaptLang] at hl ⊢
    asteps [hd]
    refine hl.trans ?_
    asteps [callTail, h1, h2, List.append_nil]
    refine fork_ext (fun b s1 _ => ?_) (fun e s1 _ => ?_)
    · asteps [h1, h2, first_tuple]
      refine fork_ext (fun c s2 _ => ?_) (fun e s2 _ => ?_)
      · asteps [dispatch, find_unprotected, C83_unprotected]
        refine fork_ext (fun d s3 _ => ?_) (fun e s3 _ => ?_) <;> asteps
      · asteps
    · asteps

/-- **C83** `LocatingUntrustedAdapterFactory.__call__` (adapter.py:134-136). -/
theorem C83_untrusted (X : Ctx A) (f : Val) (args : List Val) :
    callFactoryObject X untrustedMethods f args = val (untrustedCall X f args) := by
  apply ext_fork
  intro s
  have hm : findMethod untrustedMethods "__call__" = some Adapter.LocatingUntrustedAdapterFactory.__call__ := rfl
  unfold callFactoryObject dispatch untrustedCall
  simp only [hm]
  rw [adaptLang]
  asteps [Adapter.LocatingUntrustedAdapterFactory.__call__, List.append_nil]
  refine fork_ext (fun b s1 _ => ?_) (fun e s1 _ => ?_)
  · asteps [first_tuple]
    refine fork_ext (fun c s2 _ => ?_) (fun e s2 _ => ?_)
    · asteps
      refine fork_ext (fun d s3 _ => ?_) (fun e s3 _ => ?_) <;> asteps
    · asteps
  · asteps

/-- What running source gave, as a value of the model. -/
def Gave (r : Res PV × St A) (r' : Res Val × St A) : Prop :=
  r = (match r'.1 with
    | .ok v => .ok (.v v)
    | .err e => .err e
    | .diverge => .diverge, r'.2)

theorem gave_val {x : M A PV} {y : M A Val} (h : x = val y) (s : St A) (r : Res Val × St A) : Gave (x s) r ↔ y s = r := by
  subst h
  unfold Gave val
  show (y >>= fun a => Pure.pure (PV.v a)) s = _ ↔ _
  rcases hy : y s with ⟨q, s1⟩
  obtain ⟨q', s2⟩ := r
  cases q with
  | ok v => rw [bind_ok hy, run_pure]; cases q' <;> simp
  | err e => rw [bind_err hy]; cases q' <;> simp
  | diverge => rw [bind_diverge hy]; cases q' <;> simp

/-- **C83** A trusted adapter factory, run from source, called with a proxied object among its arguments: the adapted factory gets the
arguments with one proxy removed from each, the result is placed relative to the first of them and returned protected. -/
theorem C83_trusted_proxied (X : Ctx A) (locating : Bool) (f : Val) (args raw : List Val) (s : St A)
    (hraw : AllBared X.impl s args raw) (hne : raw ≠ args) (r : Res Val × St A) :
    Gave (callFactoryObject X (trustedMethods locating) f args s) r
      ↔ Adapts raw (perform X (.call f raw))
          (fun a c => Located (X.W.isLoc a) locating (readParent X a) (writeParentV X a c) a c)
          (fun b s => ProxySpec true (getSC X b) (selectChecker X b) b s) s r :=
  (gave_val (C83_trusted X locating f args) s r).trans (C43_proxied X locating f args raw s hraw hne r)

/-- **C83** … with unproxied objects only: the adapted factory gets them and its result is returned as it is. -/
theorem C83_trusted_bare (X : Ctx A) (locating : Bool) (f : Val) (args : List Val) (s : St A)
    (hraw : AllBared X.impl s args args) (r : Res Val × St A) :
    Gave (callFactoryObject X (trustedMethods locating) f args s) r
      ↔ Adapts args (perform X (.call f args))
          (fun a c => Located (X.W.isLoc a) false (readParent X a) (writeParentV X a c) a c)
          (fun b s r => r = (.ok b, s)) s r :=
  (gave_val (C83_trusted X locating f args) s r).trans (C43_bare X locating f args s hraw r)

/-- **C83** An untrusted one: the adapted factory gets the arguments as they are. -/
theorem C83_untrusted_spec (X : Ctx A) (f : Val) (args : List Val) (s : St A) (r : Res Val × St A) :
    Gave (callFactoryObject X untrustedMethods f args s) r
      ↔ Adapts args (perform X (.call f args))
          (fun a c => Located (X.W.isLoc a) true (readParent X a) (writeParentV X a c) a c)
          (fun b s r => r = (.ok b, s)) s r :=
  (gave_val (C83_untrusted X f args) s r).trans (C43_untrusted X f args s r)

/-- **C83** The caller of a trusted adapter factory with a proxied argument never receives the raw adapter from its source. -/
theorem C83_trusted_protects (X : Ctx A) (locating : Bool) (f : Val) (args raw : List Val) (s : St A)
    (hraw : AllBared X.impl s args raw) (hne : raw ≠ args) (v : Val) (s' : St A)
    (h : callFactoryObject X (trustedMethods locating) f args s = (.ok (.v v), s')) :
    IsProxy v ∨ ∃ t, selectChecker X v t = (.ok .none, s') :=
  C43_protected X locating f args raw s hraw hne v s' ((gave_val (C83_trusted X locating f args) s (.ok v, s')).mp h)

/-! ## decorator.py -/

theorem getSC_unproxied (X : Ctx A) (i : Nat) (cls : String) (v : Val) (hv : v.isProxy = false) :
    getSC X (.deco i cls v) = ((do
      let c ← orNone (getSC X v)
      if c = .none then selectChecker X v else pure c) >>= decoCombine X (.deco i cls v)) := by
  cases v <;> first | rfl | simp [Val.isProxy] at hv

/-- The second half of `__get__`, from the choice of the decorator's own checker on. -/
local macro "deco_tail" c:term : tactic => `(tactic|
  (refine fork_ext (fun w s1 _ => ?_) (fun e s1 _ => ?_)
   · by_cases hw : w = .none <;> by_cases hc : $c = .none
     · asteps [hw, hc, and_true, true_and] <;> exact absurd hc (by assumption)
     · asteps [hw, hc, true_and]
     · asteps [hw, hc, and_true] <;> exact absurd hc (by assumption)
     · asteps [hw, hc, and_self]
       refine fork_ext (fun r s2 _ => ?_) (fun e s2 _ => ?_) <;> asteps
   · asteps))

/-- **C83** `DecoratedSecurityCheckerDescriptor.__get__` (decorator.py:33-55) of a decorator: the checker the model gives. -/
theorem C83_descriptor_get (X : Ctx A) (d : PV) (i : Nat) (cls : String) (inner : Val) (t : PV) :
    run (decoLang X) Decorator.DecoratedSecurityCheckerDescriptor.__get__ [d, .v (.deco i cls inner), t]
      = val (getSC X (.deco i cls inner)) := by
  apply ext_fork
  intro s
  by_cases hp : inner.isProxy = true
  · have hg : getSC X (.deco i cls inner) = (getChecker X inner >>= decoCombine X (.deco i cls inner)) := by
      cases inner <;> first | rfl | simp [Val.isProxy] at hp
    rw [hg]
    unfold decoCombine
    asteps [Decorator.DecoratedSecurityCheckerDescriptor.__get__, hp]
    refine fork_ext (fun c s0 _ => ?_) (fun e s1 _ => ?_)
    · asteps
      deco_tail c
    · asteps
  · rw [getSC_unproxied _ _ _ _ (by simpa using hp)]
    unfold decoCombine
    asteps [Decorator.DecoratedSecurityCheckerDescriptor.__get__, hp]
    refine fork_ext (fun c s0 _ => ?_) (fun e s1 _ => ?_)
    · by_cases hn : c = .none
      · asteps [hn]
        refine fork_ext (fun c s0 _ => ?_) (fun e s1 _ => ?_)
        · asteps
          deco_tail c
        · asteps
      · asteps [hn]
        deco_tail c
    · asteps

/-- **C83** … of the class: the descriptor itself. -/
theorem C83_descriptor_class (X : Ctx A) (d t : PV) (s : St A) :
    run (decoLang X) Decorator.DecoratedSecurityCheckerDescriptor.__get__ [d, .v .none, t] s = (.ok d, s) := by
  refine fork_run ?_
  asteps [Decorator.DecoratedSecurityCheckerDescriptor.__get__]
  rfl

/-- **C83** `DecoratedSecurityCheckerDescriptor.__set__` (decorator.py:57-58) refuses. -/
theorem C83_descriptor_set (X : Ctx A) (d i x : PV) (s : St A) :
    run (decoLang X) Decorator.DecoratedSecurityCheckerDescriptor.__set__ [d, i, x] s = (.err .typeError, s) := by
  refine fork_run ?_
  asteps [Decorator.DecoratedSecurityCheckerDescriptor.__set__]
  rfl

/-! ## testing.py -/

theorem fork_finally (x : M A Val) (fin : M A Unit) (k : Val → St A → Res β × St A) (h : Exn → St A → Res β × St A) (s : St A) :
    fork (tryFinally x fin) k h s = fork x (fun v => fork fin (fun _ => k v) h) (fun e => fork fin (fun _ => h e) h) s := by
  unfold fork tryFinally
  rcases x s with ⟨r, s'⟩
  cases r with
  | ok v => show _ = _; simp only [bind, M.bind]; rcases fin s' with ⟨r, s''⟩; cases r <;> rfl
  | err e => simp only [bind, M.bind]; rcases fin s' with ⟨r, s''⟩; cases r <;> rfl
  | diverge => rfl

/-- **C83** `create_interaction` (testing.py:77-87). -/
theorem C83_create (X : Ctx A) (body : Option Principal → M A Val) (a : Nat) (id : String) :
    run (testLang X body) Testing.create_interaction [.v (.str a id)] = (do
      let p ← createInteraction X id
      pure (.user p)) := by
  apply ext_fork
  intro s
  unfold createInteraction
  asteps [Testing.create_interaction]
  refine fork_ext (fun p s1 _ => ?_) (fun e s1 _ => ?_)
  · asteps
    refine fork_ext (fun p s1 _ => ?_) (fun e s1 _ => ?_) <;> asteps
  · asteps

/-- **C83** `with interaction(principal_id) as p: body` (testing.py:90-104). -/
theorem C83_interaction (X : Ctx A) (body : Option Principal → M A Val) (a : Nat) (id : String) :
    run (testLang X body) Testing.interaction [.v (.str a id)] = (do
      let _ ← interactionCtx X id body
      pure (.v .none)) := by
  apply ext_fork
  intro s
  unfold interactionCtx
  asteps [Testing.interaction]
  refine fork_ext (fun q s1 _ => ?_) (fun e s1 _ => ?_)
  · by_cases hq : truthy X.W q = true
    · asteps [hq]
      refine fork_ext (fun p s1 _ => ?_) (fun e s1 _ => ?_) <;> asteps
    · asteps [hq]
      refine fork_ext (fun p s2 _ => ?_) (fun e s2 _ => ?_)
      · asteps [fork_finally]
        refine fork_ext (fun r s3 _ => ?_) (fun e s3 _ => ?_)
        · asteps
          refine fork_ext (fun p s2 _ => ?_) (fun e s2 _ => ?_) <;> asteps
        · asteps
          refine fork_ext (fun p s2 _ => ?_) (fun e s2 _ => ?_) <;> asteps
      · asteps
  · asteps

/-- The object under construction with further attributes. -/
def holding (s : St Attrs) (l : Attrs) : St Attrs := { s with app := l ++ s.app }

/-- **C83** `Participation(principal)` (testing.py:51-53): the principal given, and no interaction, as the model's new participation. -/
theorem C83_participation (X : Ctx Attrs) (p : PV) (s : St Attrs) :
    run (initLang X) Testing.Participation.__init__ [.sym "self", p] s
      = (.ok (.v .none), holding s [("interaction", .v .none), ("principal", p)]) := by
  refine fork_run ?_
  asteps [Testing.Participation.__init__]
  rfl

/-- **C83** `Principal(id, title, description, groups)` (testing.py:35-41): a title that is false is replaced by the id; the attribute
`groups` is there only if groups are given. -/
theorem C83_principal (X : Ctx Attrs) (i t d g : Val) (s : St Attrs) :
    run (initLang X) Testing.Principal.__init__ [.sym "self", .v i, .v t, .v d, .v g] s
      = (.ok (.v .none), holding s ((if g = .none then [] else [("groups", .v g)]) ++
          [("description", .v d), ("title", .v (if truthy X.W t then t else i)), ("id", .v i)])) := by
  refine fork_run ?_
  by_cases ht : truthy X.W t = true <;> by_cases hg : g = .none
  all_goals asteps [Testing.Principal.__init__, ht, hg]
  all_goals rfl

/-- **C83** `Principal(id)`: title the id, description empty, no groups. -/
theorem C83_principal_default (X : Ctx Attrs) (i : Val) (s : St Attrs) :
    run (initLang X) Testing.Principal.__init__ [.sym "self", .v i] s
      = (.ok (.v .none), holding s [("description", .v (.str 0 "")), ("title", .v i), ("id", .v i)]) := by
  refine fork_run ?_
  have ht : truthy X.W .none = false := rfl
  asteps [Testing.Principal.__init__, ht]
  rfl

/-- What the constructor of an adapter factory leaves: the factory, its name and its module, in the order they are read. -/
def factoryInit (X : Ctx Attrs) (f : Val) : M Attrs PV := do
  M.modify fun s => { s with app := ("factory", .v f) :: s.app }
  let n ← probe X (.getattr f "__name__")
  M.modify fun s => { s with app := ("__name__", .v n) :: s.app }
  let m ← probe X (.getattr f "__module__")
  M.modify fun s => { s with app := ("__module__", .v m) :: s.app }
  pure (.v .none)

/-- **C83** The constructors of the adapter factories (adapter.py:66-69, 129-132). -/
theorem C83_factory_init (X : Ctx Attrs) (f : Val) :
    run (initLang X) Adapter.LocatingTrustedAdapterFactory.__init__ [.sym "self", .v f] = factoryInit X f
    ∧ run (initLang X) Adapter.LocatingUntrustedAdapterFactory.__init__ [.sym "self", .v f] = factoryInit X f := by
  constructor <;> apply ext_fork <;> intro s <;> unfold factoryInit
  all_goals
    asteps [Adapter.LocatingTrustedAdapterFactory.__init__, Adapter.LocatingUntrustedAdapterFactory.__init__]
    refine fork_ext (fun n s1 _ => ?_) (fun e s1 _ => ?_)
    · asteps
      refine fork_ext (fun n s1 _ => ?_) (fun e s1 _ => ?_) <;> asteps
    · asteps

/-- **C83** `addCheckerPublic` (testing.py:56-74) registers a new permission object under the public permission's name, and so that
permission counts as defined, and every other as before. -/
theorem C83_addCheckerPublic (X : Ctx Shop) (s : St Shop) :
    ∃ s', run (shopLang X) Testing.addCheckerPublic [] s = (.ok (.v (.obj s.nextId)), s')
      ∧ s'.app.ids s.nextId = .v publicPermission
      ∧ (∀ truth : Nat → Bool, truth s.nextId = true →
          checkPermissionDefined s'.app.utilities truth (.id zopePublic) = .ok ())
      ∧ (∀ truth p, p ≠ .id zopePublic →
          checkPermissionDefined s'.app.utilities truth p = checkPermissionDefined s.app.utilities truth p) := by
  have hp : (publicPermission : Val) = .str 0 zopePublic := rfl
  refine ⟨_, fork_run (by asteps [Testing.addCheckerPublic, hp]; rfl), ?_, ?_, ?_⟩
  · simp [publicPermission]
  · intro truth h
    simp [checkPermissionDefined, ZS.queryUtility, h]
  · intro truth p hne
    cases p with
    | checkerPublic => rfl
    | id n =>
      have hn : (n == zopePublic) = false := by simpa using fun h => hne (by rw [h])
      simp [checkPermissionDefined, ZS.queryUtility, List.lookup, hn]

end ZS.Props

/-! ## Cases -/

namespace ZS.Props.AdapterExamples
open ZS ZS.PyC ZS.Src ZS.Props ZS.Spec

/-- The source of a trusted factory called with a proxied object: the located adapter comes back proxied, with the bare object as parent. -/
example : ∀ impl, let r := callFactoryObject (Ex.X impl) (trustedMethods true) (.fn 9) [.proxy 70 (.obj 1) Ex.c1, .int 3] sAd
    (∃ i c, r.1 = .ok (.v (.proxy i (.deco 100 "LocationProxy" (.obj 7)) c))) ∧ r.2.parents 100 = .obj 1 := by
  intro impl
  rw [C83_trusted]
  cases impl <;> exact ⟨⟨_, _, rfl⟩, rfl⟩

/-- The non-locating one does not location-proxy it. -/
example : ∀ impl, ∃ i c, (callFactoryObject (Ex.X impl) (trustedMethods false) (.fn 9) [.proxy 70 (.obj 1) Ex.c1, .int 3] sAd).1
    = .ok (.v (.proxy i (.obj 7) c)) := by
  intro impl
  rw [C83_trusted]
  cases impl <;> exact ⟨_, _, rfl⟩

/-- The untrusted factory hands the proxy on. -/
example : ∀ impl, ((callFactoryObject (Ex.X impl) untrustedMethods (.fn 9) [.proxy 70 (.obj 1) Ex.c1] sAd).2.parents 100)
    = .proxy 70 (.obj 1) Ex.c1 := by
  intro impl
  rw [C83_untrusted]
  cases impl <;> rfl

/-- Called without arguments, the adapted factory is called and then there is no context. -/
example : (callFactoryObject (Ex.X .py) untrustedMethods (.fn 9) [] sAd).1 = .err .indexError := by
  rw [C83_untrusted]
  rfl

/-- The hypotheses of `C83_trusted_protects`. -/
example : AllBared .py sAd [.proxy 70 (.obj 1) Ex.c1, .int 3] [.obj 1, .int 3] ∧ [Val.obj 1, .int 3] ≠ [.proxy 70 (.obj 1) Ex.c1, .int 3] :=
  ⟨.cons (.inl ⟨_, rfl⟩) (.cons (.inr ⟨rfl, rfl⟩) .nil), by decide⟩

/-- A decorator of a proxied object: the checker of its class combined with that of the proxy. -/
example : ∃ c, (run (decoLang (Ex.X .py)) Decorator.DecoratedSecurityCheckerDescriptor.__get__
    [.sym "self", .v (.deco 5 "Thing" (.proxy 70 (.obj 1) Ex.c1)), .v .none] sAd).1 = .ok (.v c) ∧ c ≠ Ex.c1 := by
  rw [C83_descriptor_get]
  exact ⟨_, rfl, by decide⟩

/-- The body of the `with` statement runs in an interaction; afterwards there is none. -/
example : let r := run (testLang (Ex.X .c) fun _ => M.throw (.other 7)) Testing.interaction [.v (.str 0 "bob")] Ex.s0
    r.1 = .err (.other 7) ∧ (r.2.threads 0).interaction = none := by
  rw [C83_interaction]
  exact ⟨rfl, rfl⟩

/-- An empty registry: after `addCheckerPublic` the public permission is defined and `zope.View` is not. -/
example (X : Ctx Shop) (s : St Shop) (h : s.app.utilities = []) : ∃ s', (run (shopLang X) Testing.addCheckerPublic [] s).2 = s'
    ∧ checkPermissionDefined s'.app.utilities (fun _ => true) (.id zopePublic) = .ok ()
    ∧ checkPermissionDefined s'.app.utilities (fun _ => true) (.id "zope.View") = .err .valueError := by
  obtain ⟨s', h1, _, h3, h4⟩ := C83_addCheckerPublic X s
  refine ⟨s', by rw [h1], h3 _ rfl, ?_⟩
  rw [h4 _ _ (by decide), h]
  rfl

end ZS.Props.AdapterExamples
