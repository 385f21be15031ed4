import Verif.Lemmas.CRun

/-!
# C87: the functions of `_zope_security_checker.c`, run from source
-/

namespace ZS.Props
open ZS.CM ZS.CS

variable {H : Host}

theorem glob_interaction (H : Host) : glob H "str_interaction" = .name "interaction" := rfl
theorem glob_checkPermission (H : Host) : glob H "str_checkPermission" = .name "checkPermission" := rfl
theorem glob_securityChecker (H : Host) : glob H "str___Security_checker__" = .name "__Security_checker__" := rfl
theorem glob_threadLocal (H : Host) : glob H "thread_local" = .ptr (some H.E.threadLocal) := rfl
theorem glob_public (H : Host) : glob H "CheckerPublic" = .ptr (some H.E.checkerPublic) := rfl
theorem glob_Proxy (H : Host) : glob H "Proxy" = .ptr (some H.E.proxyType) := rfl
theorem glob_forbidden (H : Host) : glob H "ForbiddenAttribute" = .name "ForbiddenAttribute" := rfl
theorem glob_unauthorized (H : Host) : glob H "Unauthorized" = .name "Unauthorized" := rfl

theorem C87_permission_id (self name : Nat) (h : H.E.held self = true) :
    RunsAs H 1 "Checker_permission_id" [.ptr (some self), .ptr (some name)] (CM.permissionId H.E self name) .ptr := by
  refine .intro (g := Src.Checker_permission_id) rfl rfl fun d hd => ?_
  crun [Src.Checker_permission_id, use_held h, CM.permissionId]
  refine step_get fun p m hm => ?_
  cases p with
  | none => crun [lookup]
  | some p =>
    crun [lookup, C.ok_bind hm]
    refine congrFun (C.step fun p => ?_) m
    cases p <;> crun []

theorem C87_setattr_permission_id (self name : Nat) (h : H.E.held self = true) :
    RunsAs H 1 "Checker_setattr_permission_id" [.ptr (some self), .ptr (some name)] (CM.setattrPermissionId H.E self name) .ptr := by
  refine .intro (g := Src.Checker_setattr_permission_id) rfl rfl fun d hd => ?_
  crun [Src.Checker_setattr_permission_id, use_held h, CM.setattrPermissionId]
  refine step_set fun p m hm => ?_
  cases p with
  | none => crun [lookup]
  | some p =>
    crun [lookup, C.ok_bind hm]
    refine congrFun (C.step fun p => ?_) m
    cases p <;> crun []

theorem C87_checkPermission (permission object name : Nat) :
    RunsAs H 1 "checkPermission" [.ptr (some permission), .ptr (some object), .ptr (some name)]
      (CM.checkPermission H.E permission object name) .int := by
  refine .intro (g := Src.checkPermission) rfl rfl fun d hd => ?_
  crun [Src.checkPermission, CM.checkPermission, glob_interaction, glob_checkPermission, glob_threadLocal, glob_unauthorized]
  refine C.step ?_
  rintro (_ | interaction)
  · crun []
  crun []
  refine C.step fun r => C.step fun _ => ?_
  cases r with
  | none => crun []
  | some r =>
    crun []
    refine C.step fun i => C.step fun _ => ?_
    by_cases h : i < 0
    · crun [h]
    · by_cases h0 : i = 0
      · subst h0
        crun [h, raiseUnauthorized]
        refine C.step ?_
        rintro (_ | r) <;> crun []
      · crun [h, h0]

/-- The statements that raise `ForbiddenAttribute`. -/
local macro "forbids" : tactic =>
  `(tactic| (crun [raiseForbidden]; refine C.step ?_; rintro (_ | p) <;> crun []))

/-- The statements for names that are not declared. -/
local macro "undeclared" n:ident : tactic =>
  `(tactic| (
    crun [checkUndeclared, isOperator]
    refine C.step fun _ => ?_
    by_cases hs : H.E.isStr $n = true
    · crun [hs, getD_eq_iff]
      refine C.step fun _ => C.step fun t => ?_
      by_cases h0 : t[0]? = some '_'
      · crun [h0]
        refine C.step fun _ => C.step fun t => ?_
        by_cases h1 : t[1]? = some '_'
        · crun [h1]
          refine C.step fun i => ?_
          by_cases hi : i < 0
          · crun [hi]
          · by_cases hi0 : i = 0
            · crun [hi, hi0, Int.lt_irrefl]
              refine C.step fun _ => C.step fun t => ?_
              by_cases ht : t = "__iter__".toList
              · crun [ht]
                refine C.step ?_
                rintro (_ | _)
                · crun []
                · forbids
              · crun [ht, Int.reduceEq]
                forbids
            · crun [hi, hi0]
        · crun [h1]
          forbids
      · crun [h0]
        forbids
    · crun [hs]
      forbids))

theorem C87_check_int (self object name : Nat) (h : H.E.held self = true) :
    RunsAs H 2 "Checker_check_int" [.ptr (some self), .ptr (some object), .ptr (some name)]
      (checkInt H.E self object (some name)) .int := by
  refine .intro (g := Src.Checker_check_int) rfl rfl fun d hd => ?_
  crun [Src.Checker_check_int, use_held h, checkInt, deref, checkNamed, glob_public, glob_forbidden]
  refine step_get fun p m hm => ?_
  cases p with
  | none => 
    crun [lookup]
    refine congrFun (?_ : _ = _) m
    undeclared name
  | some p =>
    crun [lookup, C.ok_bind hm]
    refine congrFun (C.step ?_) m
    rintro (_ | p) 
    · crun []
      undeclared name
    · crun [(C87_checkPermission p object name).call hd]
      by_cases hp : p = H.E.checkerPublic
      · crun [hp]
      · crun [hp, Option.some.injEq]
        refine C.step fun i => ?_
        by_cases hi : i < 0 <;> crun [hi]

/-- With NULL for the name, as for `del checker[object]`, `Checker_check_int` reads from NULL before anything else is
called. -/
theorem C87_check_int_null (self object : Nat) (h : H.E.held self = true) (d : Nat) (m : Mem) :
    ∃ m', run H (d + 1) "Checker_check_int" [.ptr (some self), .ptr (some object), .ptr none] m = .fault .null m' ∧
      m'.log = m.log ∧ m'.own = m.own := by
  have : RunsAs H 1 "Checker_check_int" [.ptr (some self), .ptr (some object), .ptr none] (loadGetperms self >>= fun _ => stuck) id := by
    refine .intro (g := Src.Checker_check_int) rfl rfl fun d hd => ?_
    crun [Src.Checker_check_int, use_held h, glob_public, glob_forbidden]
    refine step_get fun p m hm => ?_
    cases p with
    | none =>
      crun []
      rfl
    | some p =>
      crun [C.ok_bind hm]
      rfl
  rw [this (d + 1) (by omega)]
  exact ⟨_, rfl, rfl, rfl⟩

theorem C87_check_method (self object name : Nat) (h : H.E.held self = true) :
    RunsAs H 3 "Checker_check" [.ptr (some self), .tuple [object, name]] (checkerCheck H.E self object name) .ptr := by
  refine .intro (g := Src.Checker_check) rfl rfl fun d hd => ?_
  crun [Src.Checker_check, checkerCheck, assigned]
  refine C.step ?_
  rintro (_ | _)
  · crun []
  · crun [(C87_check_int self object name h).call hd]
    refine C.step fun i => ?_
    by_cases hi : i < 0 <;> crun [hi, returnNone]

theorem C87_check_setattr (self object name : Nat) (h : H.E.held self = true) :
    RunsAs H 2 "Checker_check_setattr" [.ptr (some self), .tuple [object, name]] (checkerCheckSetattr H.E self object name) .ptr := by
  refine .intro (g := Src.Checker_check_setattr) rfl rfl fun d hd => ?_
  crun [Src.Checker_check_setattr, checkerCheckSetattr, assigned, use_held h, glob_public, glob_forbidden]
  refine C.step ?_
  rintro (_ | _)
  · crun []
  crun []
  refine step_set fun p m hm => ?_
  cases p with
  | none =>
    crun [lookup]
    refine congrFun (?_ : _ = _) m
    forbids
  | some p =>
    crun [lookup, C.ok_bind hm]
    refine congrFun (C.step ?_) m
    rintro (_ | p)
    · crun []
      forbids
    · crun [(C87_checkPermission p object name).call hd, returnNone]
      by_cases hp : p = H.E.checkerPublic
      · crun [hp]
      · crun [hp, Option.some.injEq]
        refine C.step fun i => ?_
        by_cases hi : i < 0 <;> crun [hi]

theorem C87_clear (self : Nat) (h : H.E.held self = true) :
    RunsAs H 1 "Checker_clear" [.ptr (some self)] (checkerClear H.E self) .int := by
  refine .intro (g := Src.Checker_clear) rfl rfl fun d hd => ?_
  crun [Src.Checker_clear, checkerClear, clearField, use_held h]

theorem C87_init (self getperms : Nat) (setperms : Ptr) (kwds : V) (h : H.E.held self = true) :
    RunsAs H 1 "Checker_init" [.ptr (some self), .tuple (getperms :: setperms.toList), kwds]
      (checkerInit H.E self getperms setperms) .int := by
  refine .intro (g := Src.Checker_init) rfl rfl fun d hd => ?_
  cases setperms <;> crun [Src.Checker_init, checkerInit, assigned, writeField, use_held h, Option.toList]
  · refine C.step ?_
    rintro (_ | _) <;> crun [xincref]
    exact if_pos (by decide)
  · refine C.step ?_
    rintro (_ | _) <;> crun [xincref]
    exact if_pos (by decide)

theorem C87_get_get_permissions (self : Nat) (closure : V) (h : H.E.held self = true) :
    RunsAs H 1 "Checker_get_get_permissions" [.ptr (some self), closure] (getGetPermissions H.E self) .ptr := by
  refine .intro (g := Src.Checker_get_get_permissions) rfl rfl fun d hd => ?_
  crun [Src.Checker_get_get_permissions, getGetPermissions, writeField, use_held h]
  refine step_get fun p m hm => ?_
  cases p with
  | some p =>
    crun [C.ok_bind hm, returnField, deref]
    exact get_incref hm _
  | none =>
    crun [returnField]
    refine (store_null_get hm _).trans (congrFun (C.step ?_) m)
    rintro (_ | d)
    · crun []
    · crun []
      refine store_load_get fun m hm => ?_
      crun [C.ok_bind hm, deref]
      exact get_incref hm _

theorem C87_get_set_permissions (self : Nat) (closure : V) (h : H.E.held self = true) :
    RunsAs H 1 "Checker_get_set_permissions" [.ptr (some self), closure] (getSetPermissions H.E self) .ptr := by
  refine .intro (g := Src.Checker_get_set_permissions) rfl rfl fun d hd => ?_
  crun [Src.Checker_get_set_permissions, getSetPermissions, writeField, use_held h]
  refine step_set fun p m hm => ?_
  cases p with
  | some p =>
    crun [C.ok_bind hm, returnField, deref]
    exact set_incref hm _
  | none =>
    crun [returnField]
    refine (store_null_set hm _).trans (congrFun (C.step ?_) m)
    rintro (_ | d)
    · crun []
    · crun []
      refine store_load_set fun m hm => ?_
      crun [C.ok_bind hm, deref]
      exact set_incref hm _

/-- The loop of `selectChecker`. -/
theorem selects {cond : Locals → (V → C V) → C V} {body : Locals → (Locals → C V) → C V} {k : Locals → C V} {object : Nat}
    (hc : ∀ l k c, look l "checker" = .ptr (some c) → cond l k = use H.E c >>= fun _ => k (.ofBool (!H.E.isChecker c)))
    (hb : ∀ l k c, look l "checker" = .ptr (some c) → look l "object" = .ptr (some object) →
      body l k = callObj H.E .api .call [c, object] >>= fun p => decref H.E c >>= fun _ => match p with
        | none => pure (.ptr none)
        | some q => if q = H.E.noProxy ∨ q = H.E.none then decref H.E q >>= fun _ => incref H.E H.E.none >>= fun _ => pure (.ptr (some H.E.none))
          else k (("checker", .ptr (some q)) :: ("newchecker", .ptr (some q)) :: l))
    (hk : ∀ l, k l = pure (look l "checker")) (n checker : Nat) (l : Locals)
    (h1 : look l "checker" = .ptr (some checker)) (h2 : look l "object" = .ptr (some object)) :
    loopN cond body H k n l = CM.selectLoop H.E object n checker >>= fun p => pure (.ptr p) := by
  induction n generalizing checker l with
  | zero => rfl
  | succ n ih =>
    simp only [loopN, CM.selectLoop, hc l _ checker h1, C.bind_assoc]
    refine C.step fun _ => ?_
    by_cases hk' : H.E.isChecker checker = true
    · crun [hk', hk, h1]
    · crun [hk', hb l _ checker h1 h2, Bool.not_eq_true]
      refine C.step fun p => C.step fun _ => ?_
      cases p with
      | none => crun []
      | some q =>
        crun []
        by_cases hq : q = H.E.noProxy ∨ q = H.E.none
        · crun [hq, returnNone]
        · crun [hq]
          exact ih q _ rfl h2

local macro "looping" : tactic =>
  `(tactic| (
    refine C.step fun _ => selects (fun l k c hc => by crun [hc]) (fun l k c hc ho => ?_) (fun l => rfl) _ _ _ rfl rfl
    crun [hc, ho]
    refine C.step ?_
    rintro (_ | q)
    · crun []
    · crun [Option.some.injEq]
      refine C.step fun _ => ?_
      by_cases h1 : q = H.E.noProxy
      · crun [h1]
      · by_cases h2 : q = H.E.none
        · crun [h1, h2]
          try exact ite_self _
        · crun [h1, h2]))

theorem C87_selectChecker (object : Nat) (ignored : V) :
    RunsAs H 1 "selectChecker" [ignored, .ptr (some object)] (CM.selectChecker H.E H.fuel object) .ptr := by
  refine .intro (g := Src.selectChecker) rfl rfl fun d hd => ?_
  crun [Src.selectChecker, CM.selectChecker, returnNone, isUnprotectedException]
  refine C.step fun _ => C.step ?_
  rintro (_ | p)
  · crun [Option.getD_none, Option.some.injEq]
    by_cases hn : H.E.defaultChecker = H.E.noProxy
    · crun [hn]
    · crun [hn]
      refine C.step fun i => ?_
      by_cases hi : i = 0
      · crun [hi]
        looping
      · crun [hi]
  · crun [Option.getD_some, Option.some.injEq]
    by_cases hn : p = H.E.noProxy
    · crun [hn]
    · by_cases hd : p = H.E.defaultChecker
      · subst hd
        crun [hn]
        refine C.step fun i => ?_
        by_cases hi : i = 0
        · crun [hi]
          looping
        · crun [hi]
      · crun [hn, hd]
        looping

theorem C87_proxy (self : V) (value : Nat) :
    RunsAs H 2 "Checker_proxy" [self, .ptr (some value)] (CM.checkerProxy H.E H.fuel value) .ptr := by
  refine .intro (g := Src.Checker_proxy) rfl rfl fun d hd => ?_
  crun [Src.Checker_proxy, CM.checkerProxy, glob_Proxy, glob_securityChecker, Option.some.injEq,
    (C87_selectChecker value (.ptr none)).call hd]
  refine C.step fun _ => ?_
  by_cases hx : H.E.exactProxy value = true
  · crun [hx]
  · crun [hx]
    refine C.step ?_
    rintro (_ | c)
    · crun []
      refine C.step fun _ => C.step ?_
      rintro (_ | c)
      · crun []
      · crun [makeProxy, Option.some.injEq]
        by_cases hc : c = H.E.none <;> crun [hc]
    · crun [makeProxy, Option.some.injEq]
      by_cases hc : c = H.E.none
      · crun [hc]
        refine C.step ?_
        rintro (_ | e) <;> crun []
      · crun [hc]

end ZS.Props
