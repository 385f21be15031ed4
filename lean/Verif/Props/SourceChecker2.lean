import Verif.Props.SourceChecker

/-!
# C76, continued: choosing checkers, creating proxies, the registry
-/

namespace ZS.Props
open ZS ZS.PyC ZS.Src
variable {A : Type}
set_option maxHeartbeats 1000000

/-- `ProxyFactory(object, checker)`. -/
theorem C76_ProxyFactory (X : Ctx A) (o c : Val) :
    run (lang X own) Checker.ProxyFactory [.v o, .v c] = val (proxyFactory X o c) := by
  apply ext_fork
  intro s
  unfold proxyFactory
  cases ho : o.isProxy with
  | true =>
    obtain ⟨id, w, c0, rfl⟩ : ∃ id w c0, o = .proxy id w c0 := by
      cases o <;> first | exact ⟨_, _, _, rfl⟩ | cases ho
    by_cases hc : c = .none
    · subst hc
      pysteps [Checker.ProxyFactory, ho, getChecker, true_or]
    · by_cases h0 : c = proxyChecker X s id c0
      · pysteps [Checker.ProxyFactory, ho, hc, getChecker, h0, or_true]
        split <;> rfl
      · pysteps [Checker.ProxyFactory, ho, hc, getChecker, h0, or_self]
  | false =>
    by_cases hc : c = .none
    · subst hc
      pysteps [Checker.ProxyFactory, ho]
      refine fork_ext (fun c s' hc => ?_) (fun e s' he => ?_)
      · by_cases h : c = .none
        · subst h
          pysteps
          refine fork_ext (fun c s' hc => ?_) (fun e s' he => ?_)
          · by_cases h : c = .none
            · subst h; pysteps
            · pysteps [h]
              refine fork_ext (fun c s' hc => ?_) (fun e s' he => ?_) <;> pysteps
          · pysteps
        · pysteps [h]
          refine fork_ext (fun c s' hc => ?_) (fun e s' he => ?_) <;> pysteps
      · pysteps
    · pysteps [Checker.ProxyFactory, ho, hc]
      refine fork_ext (fun c s' hc => ?_) (fun e s' he => ?_) <;> pysteps

/-- `ProxyFactory(object)`. -/
theorem C76_ProxyFactory1 (X : Ctx A) (o : Val) :
    run (lang X own) Checker.ProxyFactory [.v o] = val (proxyFactory X o .none) := by
  rw [← C76_ProxyFactory]
  rfl

/-- `canAccess`. -/
theorem C76_canAccess (X : Ctx A) (o : Val) (a : Nat) (n : Name) :
    run (lang X own) Checker.canAccess [.v o, .v (.str a n)] = truthOf (canAccess X o n) := by
  apply ext_fork
  intro s
  unfold canAccess
  pysteps [Checker.canAccess]
  refine fork_ext (fun c s' hc => ?_) (fun e s' he => ?_)
  · pysteps
    refine fork_ext (fun c s' hc => ?_) (fun e s' he => ?_)
    · pysteps
      refine fork_ext (fun c s' hc => ?_) (fun e s' he => ?_)
      · pysteps
      · cases hu : e.isUnauthorized <;> pysteps [hu]
    · pysteps
  · pysteps

theorem fork_canWriteWith {β : Type} (X : Ctx A) (c p : Val) (n : Name) (k : Bool → St A → Res β × St A)
    (h : Exn → St A → Res β × St A) (s : St A) :
    fork (canWriteWith X c p n) k h s = fork (chkCheck X (hasattrX X) .setattr c p n) (fun _ => k true)
      (fun e s' => if e.isUnauthorized then k false s'
        else if e.isForbidden then fork (chkCheck X (hasattrX X) .getattr c p n) (fun _ => k false)
          (fun e2 s2 => if e2.isUnauthorized then k false s2 else h e2 s2) s'
        else h e s') s := by
  unfold fork canWriteWith
  cases ha : chkCheck X (hasattrX X) .setattr c p n s with
  | mk r s1 =>
    cases r with
    | ok u => rfl
    | diverge => rfl
    | err e =>
      dsimp only
      cases hf : e.isUnauthorized with
      | true => rfl
      | false =>
        cases hu : e.isForbidden with
        | false => rfl
        | true =>
          simp only [Bool.false_eq_true, if_false, if_true]
          rw [run_bind]
          unfold M.tryCatch
          cases hb : chkCheck X (hasattrX X) .getattr c p n s1 with
          | mk r2 s2 =>
            cases r2 with
            | err e2 => cases h2 : e2.isUnauthorized <;> (dsimp only; rw [h2]; rfl)
            | _ => rfl

/-- `canWrite`. -/
theorem C76_canWrite (X : Ctx A) (o : Val) (a : Nat) (n : Name) :
    run (lang X own) Checker.canWrite [.v o, .v (.str a n)] = truthOf (canWrite X o n) := by
  apply ext_fork
  intro s
  unfold canWrite
  pysteps [Checker.canWrite]
  refine fork_ext (fun c s' hc => ?_) (fun e s' he => ?_)
  · pysteps
    refine fork_ext (fun c s' hc => ?_) (fun e s' he => ?_)
    · pysteps [fork_canWriteWith]
      refine fork_ext (fun c s' hc => ?_) (fun e s' he => ?_)
      · pysteps
      · cases hu : e.isUnauthorized with
        | true => pysteps [hu]
        | false =>
          cases hf : e.isForbidden with
          | false => pysteps [hu, hf]
          | true =>
            pysteps [hu, hf]
            refine fork_ext (fun c s' hc => ?_) (fun e s' he => ?_)
            · pysteps
            · cases h2 : e.isUnauthorized <;> pysteps [h2]
    · pysteps
  · pysteps

/-- `selectCheckerPy`. -/
theorem C76_selectChecker (X : Ctx A) (o : Val) :
    run (lang X own) Checker.selectCheckerPy [.v o] = val (selectPy X o) := by
  apply ext_fork
  intro s
  unfold selectPy
  by_cases hc : (s.reg.get? (.ty (typeOf X.W o))).getD defaultChecker = .noProxy
  · pysteps [Checker.selectCheckerPy, regEntry, hc]
  · pysteps [Checker.selectCheckerPy, regEntry, hc]
    generalize X.fuel = n
    generalize (s.reg.get? (.ty (typeOf X.W o))).getD defaultChecker = c
    have key : ∀ (n : Nat) (c : Val) (env : Env) (s : St A), env.get? "checker" = some (.v c) → env.get? "object" = some (.v o) →
        fork (whileLoop (fun env => do
            let x ← eval (lang X own) (.not (.call (.glo "isinstance") [.loc "checker", .glo "Checker"])) env
            ltruth X x) (fun env => execs (lang X own)
              [.assign (.loc "checker") (.call (.loc "checker") [.loc "object"]),
               .if (.or (.cmp .is (.loc "checker") (.glo "NoProxy")) (.cmp .is (.loc "checker") (.none)))
                 [.ret (.none)]
                 []] none env) n env)
          (fun f => fork (afterStmt (lang X own) [.ret (.loc "checker")] none f) (leave okK errK) errK) errK s =
        fork (selectLoop X o n c) (fun c => okK (PV.v c)) errK s := by
      intro n
      induction n with
      | zero =>
        intro c env s h1 h2
        rw [wl_zero, selectLoop]
        cases hc : c.isChecker with
        | true => pysteps [h1, h2, hc]
        | false => pysteps [h1, h2, hc]
      | succ n ih =>
        intro c env s h1 h2
        rw [wl_succ, selectLoop]
        cases hc : c.isChecker with
        | true => pysteps [h1, h2, hc]
        | false =>
          pysteps [h1, h2, hc]
          refine fork_ext (fun c s' hc => ?_) (fun e s' he => ?_)
          · by_cases h : c = .noProxy
            · subst h; pysteps [true_or]
            · by_cases h' : c = .none
              · subst h'; pysteps [or_true]
              · pysteps [h, h', or_self]
                exact ih c _ s' rfl (by pysteps [h2])
          · pysteps
    exact key n c _ s rfl rfl

/-- `getCheckerForInstancesOf`. -/
theorem C76_getCheckerForInstancesOf (X : Ctx A) (t : Val) (k : Key) (hk : definable t = some k) (s : St A) :
    run (lang X own) Checker.getCheckerForInstancesOf [.v t] s = (.ok (.v (getCheckerFor s k)), s) := by
  refine fork_run ?_
  cases t <;> cases hk <;> pysteps [Checker.getCheckerForInstancesOf] <;> rfl

/-- `moduleChecker`. -/
theorem C76_moduleChecker (X : Ctx A) (t : Val) (k : Key) (hk : definable t = some k) (s : St A) :
    run (lang X own) Checker.moduleChecker [.v t] s = (.ok (.v (getCheckerFor s k)), s) := by
  refine fork_run ?_
  cases t <;> cases hk <;> pysteps [Checker.moduleChecker] <;> rfl

/-- The text of the TypeError: making it is not modelled. -/
theorem mod_value (a : Nat) (x : Val) :
    (lbin "%" (.v (.str a "type_ must be a type, class or module, not a %s")) (.v x) : M A PV) =
      pure (.v (.str 0 "type_ must be a type, class or module, not a %s")) := by
  cases x <;> rfl

/-- `defineChecker`. -/
theorem C76_defineChecker (X : Ctx A) (t c : Val) :
    run (lang X own) Checker.defineChecker [.v t, .v c] = unit (defineChecker t c) := by
  apply ext_fork
  intro s
  unfold defineChecker
  cases hk : definable t with
  | none => pysteps [Checker.defineChecker, hk, Option.isSome_none, mod_value]
  | some k =>
    cases t <;> cases hk
    · rename_i t
      cases hm : s.reg.mem (.ty t) <;> pysteps [Checker.defineChecker, definable, Option.isSome_some, hm]
    · rename_i t
      cases hm : s.reg.mem (.mod t) <;> pysteps [Checker.defineChecker, definable, Option.isSome_some, hm]

/-- `undefineChecker`. -/
theorem C76_undefineChecker (X : Ctx A) (t : Val) (k : Key) (hk : definable t = some k) :
    run (lang X own) Checker.undefineChecker [.v t] = unit (undefineChecker k) := by
  apply ext_fork
  intro s
  unfold undefineChecker
  cases t <;> cases hk
  · rename_i t
    cases hm : s.reg.mem (.ty t) <;> pysteps [Checker.undefineChecker, hm]
  · rename_i t
    cases hm : s.reg.mem (.mod t) <;> pysteps [Checker.undefineChecker, hm]

end ZS.Props
