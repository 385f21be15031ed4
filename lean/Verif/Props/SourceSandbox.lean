import Verif.Model.PySandbox
import Verif.Model.Simulation
import Verif.Props.Sandbox
import Verif.Props.SourcePermission

/-!
# C91: the source of examples/sandbox_security.py
-/

namespace ZS.Props
open ZS ZS.PyC ZS.Src
variable {β : Type}
set_option maxHeartbeats 1000000

section
variable (P : Place)
theorem sb0_glob : (sandLang0 P).glob = sbGlob := (rfl)
theorem sb0_getattr : (sandLang0 P).getattr = sbGetattr P := (rfl)
theorem sb0_setitem : (sandLang0 P).setitem = sbSetitem := (rfl)
theorem sb0_call : (sandLang0 P).call = sbCall0 P := (rfl)
theorem sb0_method : (sandLang0 P).method = sbMethod P := (rfl)
theorem sb0_same : (sandLang0 P).same = PyC.same := (rfl)
theorem sb0_compare : (sandLang0 P).compare = sbCompare := (rfl)
theorem sb0_truth : (sandLang0 P).truth = sbTruth := (rfl)
theorem sb0_iter : (sandLang0 P).iter = sbIter := (rfl)
theorem sb0_newDict : (sandLang0 P).newDict = sbNewDict := (rfl)
theorem sb0_assign_tuple (ts : List Expr) (xs : List PV) (env : Env) :
    assign (sandLang0 P) (.tuple ts) (.tuple xs) env = assignAll (assign1 (sandLang0 P)) ts xs env := (rfl)

theorem sbm_getHome (kw : List (Name × PV)) : sbMethod P (.sym "object") "getHome" [] kw = pure (.sym "home") := (rfl)
theorem sbm_getId (kw : List (Name × PV)) : sbMethod P (.sym "home") "getId" [] kw = pure (textV P.home) := (rfl)
theorem sbm_token (t : String) (kw : List (Name × PV)) :
    sbMethod P (.bound (.sym "principal") t) "getAuthenticationToken" [] kw = pure (textV t) := (rfl)
theorem sbm_get (h : String) (a : Nat) (k : String) (d : PV) (kw : List (Name × PV)) :
    sbMethod P (.bound (.sym "database") h) "get" [.v (.str a k), d] kw = dbGet P h k d := (rfl)
theorem sbc_getattr (a : Nat) (h : String) (d : PV) (kw : List (Name × PV)) :
    sbCall0 P (.sym "getattr") [.sym "SimulationSecurityDatabase", .v (.str a h), d] kw =
      (match P.db h with
        | .missing => pure d
        | _ => pure (.bound (.sym "database") h)) := (rfl)
theorem sba_participations : sbGetattr P (.sym "self") "participations"
    = pure (.list (P.tokens.map fun t => .bound (.sym "participation") t)) := (rfl)
theorem sba_principal (t : String) : sbGetattr P (.bound (.sym "participation") t) "principal" = pure (.bound (.sym "principal") t) := (rfl)
theorem sbin_list (a : Nat) (x : String) (l : List PV) : sbCompare .isIn (.v (.str a x)) (.list l) = pure (.v (.bool (l.any (isThe x)))) := (rfl)
theorem sbin_tuple (a : Nat) (x : String) (l : List PV) : sbCompare .isIn (.v (.str a x)) (.tuple l) = pure (.v (.bool (l.any (isThe x)))) := (rfl)
theorem sbni_list (a : Nat) (x : String) (l : List PV) : sbCompare .notIn (.v (.str a x)) (.list l) = pure (.v (.bool (!l.any (isThe x)))) := (rfl)
theorem sbni_tuple (a : Nat) (x : String) (l : List PV) : sbCompare .notIn (.v (.str a x)) (.tuple l) = pure (.v (.bool (!l.any (isThe x)))) := (rfl)
theorem sbt_bool (b : Bool) : sbTruth (.v (.bool b)) = pure b := (rfl)
theorem sbt_list (l : List PV) : sbTruth (.list l) = pure !l.isEmpty := (rfl)
theorem sbi_list (l : List PV) : sbIter (.list l) = pure l := (rfl)
end

theorem any_text (x : String) (l : List String) : (l.map textV).any (isThe x) = decide (x ∈ l) := by
  induction l with
  | nil => rfl
  | cons a l ih =>
    rw [List.map_cons, List.any_cons, ih]
    by_cases h : x = a <;> simp [isThe, h]

/-- `pysteps` for `sandLang0`. -/
syntax "sbsteps" ("[" Lean.Parser.Tactic.simpLemma,* "]")? : tactic
macro_rules
  | `(tactic| sbsteps) => `(tactic| sbsteps [])
  | `(tactic| sbsteps [$ts,*]) => `(tactic|
    pysteps [sb0_glob, sb0_getattr, sb0_setitem, sb0_call, sb0_method, sb0_same, sb0_compare, sb0_truth, sb0_iter, sb0_newDict,
      sb0_assign_tuple, sbm_getHome, sbm_getId, sbm_token, sbm_get, sbc_getattr, sba_participations, sba_principal,
      sbin_list, sbin_tuple, sbni_list, sbni_tuple, sbt_bool, sbt_list, sbi_list, any_text, $ts,*])

/-- Reading a variable. -/
theorem fork_sbVar {n : Name} {s : St Sand} {x : PV} (hx : s.app.vars n = some x) (k : PV → St Sand → Res β × St Sand) (h : Exn → St Sand → Res β × St Sand) :
    fork (sbGlob n) k h s = k x s := by
  unfold sbGlob
  rw [fork_bind, fork_get, hx]
  rfl

/-- Reading a name that is no variable. -/
theorem fork_sbSym {n : Name} {s : St Sand} (hx : s.app.vars n = none) (hn : n ∈ sandSymbols) (k : PV → St Sand → Res β × St Sand) (h : Exn → St Sand → Res β × St Sand) :
    fork (sbGlob n) k h s = k (.sym n) s := by
  unfold sbGlob
  rw [fork_bind, fork_get, hx]
  dsimp only
  rw [if_pos hn]
  rfl

theorem table_get (P : Place) (h : String) (t : String → Option (List String)) (ht : P.db h = .table t) (k : String) :
    dbGet P h k (.tuple []) = pure (match t k with | some l => .list (l.map textV) | none => .tuple []) := by
  unfold dbGet
  rw [ht]
  dsimp only
  cases t k <;> rfl

theorem in_table (x : String) (a : Nat) (o : Option (List String)) :
    sbCompare .isIn (.v (.str a x)) (match o with | some l => .list (l.map textV) | none => .tuple []) = pure (.v (.bool (decide (x ∈ o.getD [])))) := by
  cases o with
  | none => rfl
  | some l => rw [sbin_list, any_text]; rfl

theorem notIn_table (x : String) (a : Nat) (o : Option (List String)) :
    sbCompare .notIn (.v (.str a x)) (match o with | some l => .list (l.map textV) | none => .tuple []) = pure (.v (.bool (!decide (x ∈ o.getD [])))) := by
  cases o with
  | none => rfl
  | some l => rw [sbni_list, any_text]; rfl

/-- The loop of the policy over the participations. -/
theorem policy_loop (P : Place) (t : String → Option (List String)) (ht : P.db P.home = .table t) (a : Nat) (perm : String)
    (kf : Flow → St Sand → Res β × St Sand) (h : Exn → St Sand → Res β × St Sand) (s : St Sand) (R : Res β × St Sand) (ts : List String) :
    ∀ (e : Env), Env.get? e "db" = some (.bound (.sym "database") P.home) → Env.get? e "permission" = some (.v (.str a perm)) →
      (if ts.all fun token => decide (perm ∈ (t token).getD []) then ∀ e', kf (.next e') s = R else ∀ e', kf (.ret (.v (.bool false)) e') s = R) →
      fork (forLoop (assign (sandLang0 P) (.loc "participation")) (fun env => execs (sandLang0 P)
        [.assign (.loc "token") (.call (.attr (.attr (.loc "participation") "principal") "getAuthenticationToken") []),
         .assign (.loc "allowed") (.call (.attr (.loc "db") "get") [.loc "token", .tuple []]),
         .if (.cmp .notIn (.loc "permission") (.loc "allowed")) [.ret (.false)] []] none env)
        (ts.map fun t => .bound (.sym "participation") t) e) kf h s = R := by
  induction ts with
  | nil =>
    intro e _ _ hR
    rw [List.map_nil, fl_nil]
    exact hR e
  | cons u r ih =>
    intro e hd hp hR
    rw [List.map_cons, fl_cons]
    by_cases hu : perm ∈ (t u).getD []
    · sbsteps [hd, hp, table_get P P.home t ht, notIn_table, hu]
      refine ih _ (by sbsteps [hd]) (by sbsteps [hp]) ?_
      simpa [hu] using hR
    · sbsteps [hd, hp, table_get P P.home t ht, notIn_table, hu]
      exact (show ∀ e', kf (.ret (.v (.bool false)) e') s = R by simpa [hu] using hR) _

/-- **C91** `SimulationSecurityPolicy.checkPermission` (examples/sandbox_security.py:84-105), for any database, home and participations. -/
theorem C91_policy (P : Place) (a b : Nat) (perm all : String) (s : St Sand) (h1 : s.app.vars "ALL" = some (.v (.str b all)))
    (h2 : s.app.vars "getattr" = none) (h3 : s.app.vars "SimulationSecurityDatabase" = none) :
    run (sandLang0 P) SandboxSecurity.SimulationSecurityPolicy.checkPermission [.sym "self", .v (.str a perm), .sym "object"] s
      = (match sandboxCheck all P.db P.home P.tokens perm with
        | .ok r => .ok (.v (.bool r))
        | .err e => .err e
        | .diverge => .diverge, s) := by
  have n2 : "getattr" ∈ sandSymbols := by decide
  have n3 : "SimulationSecurityDatabase" ∈ sandSymbols := by decide
  have hs : ∀ h, PyC.same (.bound (.sym "database") h) (.v .none) = false := fun _ => rfl
  refine fork_run ?_
  cases hd : P.db P.home with
  | missing =>
    sbsteps [SandboxSecurity.SimulationSecurityPolicy.checkPermission, fork_sbSym h2 n2, fork_sbSym h3 n3, hd, sandboxCheck]
    rfl
  | other =>
    sbsteps [SandboxSecurity.SimulationSecurityPolicy.checkPermission, fork_sbSym h2 n2, fork_sbSym h3 n3, hd, sandboxCheck, dbGet, hs]
    rfl
  | table t =>
    sbsteps [SandboxSecurity.SimulationSecurityPolicy.checkPermission, fork_sbSym h2 n2, fork_sbSym h3 n3, hd, sandboxCheck,
      fork_sbVar h1, table_get P P.home t hd, in_table, hs]
    by_cases c1 : perm ∈ (t "any").getD []
    · simp [c1, okK]
    · by_cases c2 : all ∈ (t "any").getD []
      · simp [c1, c2, okK]
      · cases ht : P.tokens with
        | nil => simp [c1, c2, okK]
        | cons u r =>
          simp only [c1, c2, if_false, or_self, List.isEmpty_cons, Bool.false_eq_true, List.map_cons, Bool.not_false, Bool.true_eq_false]
          rw [← List.map_cons (f := fun t => (PV.sym "participation").bound t)]
          refine policy_loop P t hd a perm _ _ s _ (u :: r) _ (by sbsteps) (by sbsteps) ?_
          split
          · next hall =>
            intro e'
            sbsteps [hall]
            rfl
          · next hall =>
            intro e'
            sbsteps [hall]
            rfl

/-! ## Permission maps -/

/-- A permission map as a dictionary display. -/
abbrev mapDisplay (m : List (Val × List Name)) : PV := display (m.map fun e => .tuple [.v e.1, .list (e.2.map textV)])

theorem withDict_at (s : St Sand) (d : Nat) (x : PyDict Name Val) : (withDict s d x).dicts d = x := by simp [withDict]

theorem fork_setitem (d a : Nat) (n : String) (x : Val) (k : Unit → St Sand → Res β × St Sand) (h : Exn → St Sand → Res β × St Sand) (s : St Sand) :
    fork (sbSetitem (.dict d) (.v (.str a n)) (.v x)) k h s = k () (withDict s d ((s.dicts d).set n x)) := (rfl)

/-- The loop over the methods of one permission. -/
theorem methods_loop (P : Place) (d : Nat) (p : Val) (kf : Flow → St Sand → Res β × St Sand) (h : Exn → St Sand → Res β × St Sand) (R : Res β × St Sand)
    (Q : Env → Prop) (hQ : ∀ e x, Q e → Q (("method", x) :: e)) (ms : List Name) :
    ∀ (e : Env) (s : St Sand), Q e → (∀ e, Q e → Env.get? e "res" = some (.dict d)) → (∀ e, Q e → Env.get? e "key" = some (.v p)) →
      (∀ e', Q e' → kf (.next e') (withDict s d (listMethods p ms (s.dicts d))) = R) →
      fork (forLoop (assign (sandLang0 P) (.loc "method")) (fun env => execs (sandLang0 P)
        [.assign (.sub (.loc "res") (.loc "method")) (.loc "key")] none env) (ms.map textV) e) kf h s = R := by
  induction ms with
  | nil =>
    intro e s he _ _ hR
    rw [List.map_nil, fl_nil]
    have := hR e he
    rwa [listMethods, withDict_same] at this
  | cons m r ih =>
    intro e s he h1 h2 hR
    rw [List.map_cons, fl_cons]
    sbsteps [h1 _ he, h2 _ he, fork_setitem]
    refine ih _ _ (hQ _ _ he) h1 h2 ?_
    intro e' he'
    rw [withDict_twice, withDict_at]
    exact hR e' he'

/-- The loops of `PermissionMapChecker`. -/
theorem map_loop (P : Place) (d : Nat) (y : PV) (kf : Flow → St Sand → Res β × St Sand) (h : Exn → St Sand → Res β × St Sand) (R : Res β × St Sand)
    (m : List (Val × List Name)) :
    ∀ (e : Env) (s : St Sand), Env.get? e "res" = some (.dict d) → Env.get? e "set_permissions" = some y →
      (∀ e', Env.get? e' "res" = some (.dict d) → Env.get? e' "set_permissions" = some y →
        kf (.next e') (withDict s d (permissionMap m (s.dicts d))) = R) →
      fork (forLoop (assign (sandLang0 P) (.tuple [.loc "key", .loc "value"])) (fun env => execs (sandLang0 P)
        [.for (.loc "method") (.loc "value") [.assign (.sub (.loc "res") (.loc "method")) (.loc "key")]] none env)
        (m.map fun e => .tuple [.v e.1, .list (e.2.map textV)]) e) kf h s = R := by
  induction m with
  | nil =>
    intro e s h1 h2 hR
    rw [List.map_nil, fl_nil]
    have := hR e h1 h2
    rwa [permissionMap, withDict_same] at this
  | cons u r ih =>
    intro e s h1 h2 hR
    rw [List.map_cons, fl_cons]
    sbsteps [h1, h2]
    refine methods_loop P d u.1 _ _ _ (fun e => Env.get? e "res" = some (.dict d) ∧ Env.get? e "key" = some (.v u.1) ∧ Env.get? e "set_permissions" = some y)
      ?_ _ _ _ ?_ (fun e he => he.1) (fun e he => he.2.1) ?_
    · rintro e x ⟨a1, a2, a3⟩
      exact ⟨by sbsteps [a1], by sbsteps [a2], by sbsteps [a3]⟩
    · exact ⟨by sbsteps [h1], by sbsteps, by sbsteps [h2]⟩
    · rintro e' ⟨a1, a2, a3⟩
      sbsteps
      refine ih _ _ a1 a3 ?_
      intro e2 b1 b2
      rw [withDict_twice, withDict_at]
      exact hR e2 b1 b2

theorem fork_sbNew (k : PV → St Sand → Res β × St Sand) (h : Exn → St Sand → Res β × St Sand) (s : St Sand) :
    fork (sbNewDict []) k h s = k (.dict s.nextId) (afterDict s) := (rfl)
theorem fork_sbChecker (P : Place) (g st : Nat) (kw : List (Name × PV)) (k : PV → St Sand → Res β × St Sand) (h : Exn → St Sand → Res β × St Sand) (s : St Sand) :
    fork (sbMethod P (.sym "checker") "Checker" [.dict g, .dict st] kw) k h s = k (.v (.checker s.nextId g st)) { s with nextId := s.nextId + 1 } := (rfl)
theorem fork_sbItems (P : Place) (d : Nat) (kw : List (Name × PV)) (k : PV → St Sand → Res β × St Sand) (h : Exn → St Sand → Res β × St Sand) (s : St Sand) :
    fork (sbMethod P (.dict d) "items" [] kw) k h s = k (.list ((s.dicts d).map fun p => .tuple [textV p.1, .v p.2])) s := (rfl)
theorem sbm_items (P : Place) (l : List PV) (kw : List (Name × PV)) : sbMethod P (display l) "items" [] kw = pure (.list l) := (rfl)
theorem same_display (l : List PV) : PyC.same (display l) (.v .none) = false := (rfl)

/-- **C91** `PermissionMapChecker` (examples/sandbox_security.py:120-130): the entries are those of `permissionMap`, in a new dictionary, read by a new
checker; a dictionary for writing that is given is the one used, and a new empty one is made if there is none. -/
theorem C91_map (P : Place) (m : List (Val × List Name)) (st : Nat) (s : St Sand) (h1 : s.app.vars "checker" = none) :
    run (sandLang0 P) SandboxSecurity.PermissionMapChecker [mapDisplay m] s
      = (.ok (.v (.checker (s.nextId + 2) (s.nextId + 1) s.nextId)),
          { s with nextId := s.nextId + 3
                   dicts := fun j => if j = s.nextId + 1 then permissionMap m [] else if j = s.nextId then [] else s.dicts j })
    ∧ run (sandLang0 P) SandboxSecurity.PermissionMapChecker [mapDisplay m, .dict st] s
      = (.ok (.v (.checker (s.nextId + 1) s.nextId st)),
          { s with nextId := s.nextId + 2
                   dicts := fun j => if j = s.nextId then permissionMap m [] else s.dicts j })
    ∧ run (sandLang0 P) SandboxSecurity.PermissionMapChecker [] s
      = (.ok (.v (.checker (s.nextId + 3) (s.nextId + 2) (s.nextId + 1))),
          { s with nextId := s.nextId + 4
                   dicts := fun j => if j = s.nextId + 2 ∨ j = s.nextId + 1 ∨ j = s.nextId then [] else s.dicts j }) := by
  have n1 : "checker" ∈ sandSymbols := by decide
  refine ⟨?_, ?_, ?_⟩ <;> refine fork_run ?_
  · sbsteps [SandboxSecurity.PermissionMapChecker, same_display, same_dict, fork_sbNew, sbm_items]
    refine map_loop P (afterDict s).nextId (.dict s.nextId) _ _ _ m _ _ (by sbsteps) (by sbsteps) ?_
    intro e' a1 a2
    sbsteps [a1, a2]
    refine Eq.trans (fork_sbSym ?_ n1 _ _) ?_
    · exact h1
    sbsteps [a1, a2, fork_sbChecker]
    have hd : (afterDict (afterDict s)).dicts (afterDict s).nextId = [] := by simp [afterDict, withDict]
    rw [hd]
    simp only [okK, afterDict, withDict]
    congr 2
    funext j
    by_cases c : j = s.nextId + 1 <;> simp [c]
  · sbsteps [SandboxSecurity.PermissionMapChecker, same_display, same_dict, fork_sbNew, sbm_items]
    refine map_loop P s.nextId (.dict st) _ _ _ m _ _ (by sbsteps) (by sbsteps) ?_
    intro e' a1 a2
    sbsteps [a1, a2]
    refine Eq.trans (fork_sbSym ?_ n1 _ _) ?_
    · exact h1
    sbsteps [a1, a2, fork_sbChecker]
    have hd : (afterDict s).dicts s.nextId = [] := by simp [afterDict, withDict]
    rw [hd]
    simp only [okK, afterDict, withDict]
    congr 2
    funext j
    by_cases c : j = s.nextId <;> simp [c]
  · sbsteps [SandboxSecurity.PermissionMapChecker, same_display, same_dict, fork_sbNew, fork_sbItems]
    have hd : (afterDict (afterDict (afterDict s))).dicts s.nextId = [] := by simp [afterDict, withDict]
    rw [hd, List.map_nil, fl_nil]
    sbsteps
    refine Eq.trans (fork_sbSym ?_ n1 _ _) ?_
    · exact h1
    sbsteps [fork_sbChecker]
    simp only [okK, afterDict, withDict]
    congr 2
    funext j
    by_cases c : j = s.nextId + 2
    · simp [c]
    · by_cases c2 : j = s.nextId + 1 <;> simp [c, c2]

/-! ## The database and the statements of the module -/

/-- The state in which the module is run: no variables yet. -/
def fresh (s : St Sand) : Prop := ∀ n, s.app.vars n = none

/-- Running statements at module level or in a class body. -/
def sandRun (P : Place) (ss : List Stmt) : M Sand Flow := execs (sandLang P) ss none []

/-- A variable set. -/
def withVar (s : St Sand) (n : Name) (x : PV) : St Sand :=
  { s with app := { s.app with vars := fun m => if m = n then some x else s.app.vars m } }

/-- What a call of `PermissionMapChecker` with one map leaves. -/
def afterMap (s : St Sand) (m : List (Val × List Name)) : St Sand :=
  { s with nextId := s.nextId + 3
           dicts := fun j => if j = s.nextId + 1 then permissionMap m [] else if j = s.nextId then [] else s.dicts j }

theorem withVar_vars (s : St Sand) (n : Name) (x : PV) (m : Name) : (withVar s n x).app.vars m = if m = n then some x else s.app.vars m := (rfl)
theorem withVar_nextId (s : St Sand) (n : Name) (x : PV) : (withVar s n x).nextId = s.nextId := (rfl)
theorem afterMap_vars (s : St Sand) (m : List (Val × List Name)) : (afterMap s m).app.vars = s.app.vars := (rfl)
theorem afterMap_nextId (s : St Sand) (m : List (Val × List Name)) : (afterMap s m).nextId = s.nextId + 3 := (rfl)

theorem withVar_reg (s : St Sand) (n : Name) (x : PV) : (withVar s n x).reg = s.reg := (rfl)
theorem withVar_wired (s : St Sand) (n : Name) (x : PV) : (withVar s n x).app.wired = s.app.wired := (rfl)
theorem withVar_policy (s : St Sand) (n : Name) (x : PV) : (withVar s n x).app.policy = s.app.policy := (rfl)
theorem withVar_cls (s : St Sand) (n : Name) (x : PV) : (withVar s n x).app.cls = s.app.cls := (rfl)
theorem withVar_trace (s : St Sand) (n : Name) (x : PV) : (withVar s n x).trace = s.trace := (rfl)
theorem afterMap_reg (s : St Sand) (m : List (Val × List Name)) : (afterMap s m).reg = s.reg := (rfl)
theorem afterMap_wired (s : St Sand) (m : List (Val × List Name)) : (afterMap s m).app.wired = s.app.wired := (rfl)
theorem afterMap_policy (s : St Sand) (m : List (Val × List Name)) : (afterMap s m).app.policy = s.app.policy := (rfl)
theorem afterMap_cls (s : St Sand) (m : List (Val × List Name)) : (afterMap s m).app.cls = s.app.cls := (rfl)
theorem afterMap_trace (s : St Sand) (m : List (Val × List Name)) : (afterMap s m).trace = s.trace := (rfl)

/-- Reading a name that is no variable. -/
def symbolOf (n : Name) : M Sand PV :=
  if n ∈ sandSymbols then pure (.sym n) else if n = "__name__" then pure (textV "sandbox_security") else stuck

theorem fork_sbGlob (n : Name) (k : PV → St Sand → Res β × St Sand) (h : Exn → St Sand → Res β × St Sand) (s : St Sand) :
    fork (sbGlob n) k h s = match s.app.vars n with
      | some x => k x s
      | none => fork (symbolOf n) k h s := by
  unfold sbGlob
  rw [fork_bind, fork_get]
  cases s.app.vars n <;> rfl

theorem fork_sbSetGlob (n : Name) (x : PV) (k : Unit → St Sand → Res β × St Sand) (h : Exn → St Sand → Res β × St Sand) (s : St Sand) :
    fork (sbSetGlob n x) k h s = k () (withVar s n x) := (rfl)

theorem fork_sbMap (P : Place) (m : List (Val × List Name)) (k : PV → St Sand → Res β × St Sand) (h : Exn → St Sand → Res β × St Sand) (s : St Sand)
    (h1 : s.app.vars "checker" = none) :
    fork (sbCall P (.sym "PermissionMapChecker") [mapDisplay m] []) k h s = k (.v (.checker (s.nextId + 2) (s.nextId + 1) s.nextId)) (afterMap s m) := by
  have := (C91_map P m 0 s h1).1
  unfold fork
  rw [show sbCall P (.sym "PermissionMapChecker") [mapDisplay m] [] = run (sandLang0 P) SandboxSecurity.PermissionMapChecker [mapDisplay m] from rfl, this]
  rfl

theorem fork_map_sandbox (P : Place) (k : PV → St Sand → Res β × St Sand) (h : Exn → St Sand → Res β × St Sand) (s : St Sand)
    (h1 : s.app.vars "checker" = none) :
    fork (sbCall P (.sym "PermissionMapChecker") [display [PV.tuple [PV.v (Val.str 0 "Access Services"), PV.list [PV.v (Val.str 0 "getService"), PV.v (Val.str 0 "addService"), PV.v (Val.str 0 "getServiceIds")]], PV.tuple [PV.v (Val.str 0 "Access Agents"), PV.list [PV.v (Val.str 0 "getAgentsIds"), PV.v (Val.str 0 "getAgents")]], PV.tuple [PV.v (Val.str 0 "Add Agent"), PV.list [PV.v (Val.str 0 "addAgent")]], PV.tuple [PV.v (Val.str 0 "Transport Agent"), PV.list [PV.v (Val.str 0 "transportAgent")]], PV.tuple [PV.v publicV, PV.list [PV.v (Val.str 0 "getId"), PV.v (Val.str 0 "getHome")]]]] []) k h s
      = k (.v (.checker (s.nextId + 2) (s.nextId + 1) s.nextId)) (afterMap s sandboxSecurity) :=
  fork_sbMap P sandboxSecurity k h s h1
theorem fork_map_time (P : Place) (k : PV → St Sand → Res β × St Sand) (h : Exn → St Sand → Res β × St Sand) (s : St Sand)
    (h1 : s.app.vars "checker" = none) :
    fork (sbCall P (.sym "PermissionMapChecker") [display [PV.tuple [PV.v (Val.str 0 "Access Time Services"), PV.list [PV.v (Val.str 0 "getTime")]]]] []) k h s
      = k (.v (.checker (s.nextId + 2) (s.nextId + 1) s.nextId)) (afterMap s (serviceSecurity "TimeService")) :=
  fork_sbMap P (serviceSecurity "TimeService") k h s h1
theorem fork_map_home (P : Place) (k : PV → St Sand → Res β × St Sand) (h : Exn → St Sand → Res β × St Sand) (s : St Sand)
    (h1 : s.app.vars "checker" = none) :
    fork (sbCall P (.sym "PermissionMapChecker") [display [PV.tuple [PV.v (Val.str 0 "Access Home Service"), PV.list [PV.v (Val.str 0 "getAvailableHomes")]]]] []) k h s
      = k (.v (.checker (s.nextId + 2) (s.nextId + 1) s.nextId)) (afterMap s (serviceSecurity "HomeDiscoveryService")) :=
  fork_sbMap P (serviceSecurity "HomeDiscoveryService") k h s h1
theorem fork_map_agent (P : Place) (k : PV → St Sand → Res β × St Sand) (h : Exn → St Sand → Res β × St Sand) (s : St Sand)
    (h1 : s.app.vars "checker" = none) :
    fork (sbCall P (.sym "PermissionMapChecker") [display [PV.tuple [PV.v (Val.str 0 "Access Agent Service"), PV.list [PV.v (Val.str 0 "getLocalAgents")]]]] []) k h s
      = k (.v (.checker (s.nextId + 2) (s.nextId + 1) s.nextId)) (afterMap s (serviceSecurity "AgentDiscoveryService")) :=
  fork_sbMap P (serviceSecurity "AgentDiscoveryService") k h s h1

section
variable (P : Place)
theorem sym_checker : symbolOf "checker" = pure (.sym "checker") := if_pos (by decide)
theorem sym_sandbox : symbolOf "sandbox" = pure (.sym "sandbox") := if_pos (by decide)
theorem sym_management : symbolOf "management" = pure (.sym "management") := if_pos (by decide)
theorem sym_map : symbolOf "PermissionMapChecker" = pure (.sym "PermissionMapChecker") := if_pos (by decide)
theorem sym_policy : symbolOf "SimulationSecurityPolicy" = pure (.sym "SimulationSecurityPolicy") := if_pos (by decide)
theorem sym_name : symbolOf "__name__" = pure (textV "sandbox_security") := (if_neg (by decide)).trans (if_pos rfl)
theorem sbl_glob : (sandLang P).glob = sbGlob := (rfl)
theorem sbl_setGlob : (sandLang P).setGlob = sbSetGlob := (rfl)
theorem sbl_getattr : (sandLang P).getattr = sbGetattr P := (rfl)
theorem sbl_setattr : (sandLang P).setattr = sbSetattr := (rfl)
theorem sbl_call : (sandLang P).call = sbCall P := (rfl)
theorem sbl_method : (sandLang P).method = sbMethod P := (rfl)
theorem sbl_same : (sandLang P).same = PyC.same := (rfl)
theorem sbl_compare : (sandLang P).compare = sbCompare := (rfl)
theorem sbl_truth : (sandLang P).truth = sbTruth := (rfl)
theorem sbl_newDict : (sandLang P).newDict = sbNewDict := (rfl)
theorem sba_Public : sbGetattr P (.sym "checker") "CheckerPublic" = pure (.v publicV) := (rfl)
theorem sba_sandbox (n : Name) : sbGetattr P (.sym "sandbox") n = pure (.bound (.sym "sandbox") n) := (rfl)
theorem sbeq (a b : Nat) (x y : String) : sbCompare .eq (.v (.str a x)) (.v (.str b y)) = pure (.v (.bool (decide (x = y)))) := (rfl)
theorem sbd_cons (x : PV) (l : List PV) : sbNewDict (x :: l) = pure (display (x :: l)) := (rfl)
end

/-- `pysteps` for `sandLang`. -/
syntax "sblsteps" ("[" Lean.Parser.Tactic.simpLemma,* "]")? : tactic
macro_rules
  | `(tactic| sblsteps) => `(tactic| sblsteps [])
  | `(tactic| sblsteps [$ts,*]) => `(tactic|
    pysteps [↓ea_list, sbl_glob, sbl_setGlob, sbl_getattr, sbl_setattr, sbl_call, sbl_method, sbl_same, sbl_compare, sbl_truth, sbl_newDict,
      sba_Public, sba_sandbox, sbeq, sbd_cons, sbt_bool, fork_sbGlob, fork_sbSetGlob, withVar_vars, withVar_nextId, afterMap_vars, afterMap_nextId,
      sym_checker, sym_sandbox, sym_management, sym_map, sym_policy, sym_name, $ts,*])

/-- The permissions of the module (examples/sandbox_security.py:23-50) and their names. -/
def constants : List (Name × String) :=
  [("NotAllowed", "Not Allowed"), ("TransportAgent", "Transport Agent"), ("AccessServices", "Access Services"), ("AccessAgents", "Access Agents"),
   ("AccessTimeService", "Access Time Services"), ("AccessAgentService", "Access Agent Service"), ("AccessHomeService", "Access Home Service"),
   ("AddAgent", "Add Agent"), ("ALL", "All")]

/-- The variable holds a checker, made meanwhile, that asks for reading for what the map lists and lets nothing be written. -/
def HasChecker (s s' : St Sand) (n : Name) (m : List (Val × List Name)) : Prop :=
  ∃ i g st, s'.app.vars n = some (.v (.checker i g st)) ∧ s.nextId ≤ i ∧ s.nextId ≤ g ∧ s.nextId ≤ st
    ∧ (∀ a p, (s'.dicts g).get? a = some p ↔ LastEntry m a p) ∧ s'.dicts st = []

theorem lastEntry_get (m : List (Val × List Name)) (a : Name) (p : Val) : (permissionMap m []).get? a = some p ↔ LastEntry m a p := by
  rw [permissionMap_get]; simp

/-- The state the statements of the module leave. -/
def moduleEnd (s : St Sand) : St Sand :=
  let s0 := withVar s "NotAllowed" (textV "Not Allowed")
  let s1 := withVar s0 "Public" (.v publicV)
  let s2 := withVar s1 "TransportAgent" (textV "Transport Agent")
  let s3 := withVar s2 "AccessServices" (textV "Access Services")
  let s4 := withVar s3 "AccessAgents" (textV "Access Agents")
  let s5 := withVar s4 "AccessTimeService" (textV "Access Time Services")
  let s6 := withVar s5 "AccessAgentService" (textV "Access Agent Service")
  let s7 := withVar s6 "AccessHomeService" (textV "Access Home Service")
  let s8 := withVar s7 "AddAgent" (textV "Add Agent")
  let s9 := withVar s8 "ALL" (textV "All")
  let t0 := withVar s9 "sandbox_security" (mapDisplay sandboxSecurity)
  let u0 := withVar (afterMap t0 sandboxSecurity) "sandbox_checker" (.v (.checker (s.nextId + 2) (s.nextId + 1) (s.nextId)))
  let t1 := withVar u0 "tservice_security" (mapDisplay (serviceSecurity "TimeService"))
  let u1 := withVar (afterMap t1 (serviceSecurity "TimeService")) "time_service_checker" (.v (.checker (s.nextId + 3 + 2) (s.nextId + 3 + 1) (s.nextId + 3)))
  let t2 := withVar u1 "hservice_security" (mapDisplay (serviceSecurity "HomeDiscoveryService"))
  let u2 := withVar (afterMap t2 (serviceSecurity "HomeDiscoveryService")) "home_service_checker" (.v (.checker (s.nextId + 3 + 3 + 2) (s.nextId + 3 + 3 + 1) (s.nextId + 3 + 3)))
  let t3 := withVar u2 "aservice_security" (mapDisplay (serviceSecurity "AgentDiscoveryService"))
  let u3 := withVar (afterMap t3 (serviceSecurity "AgentDiscoveryService")) "agent_service_checker" (.v (.checker (s.nextId + 3 + 3 + 3 + 2) (s.nextId + 3 + 3 + 3 + 1) (s.nextId + 3 + 3 + 3)))
  u3

/-- **C91** The statements of the module (examples/sandbox_security.py:23-157): the permissions have the names given, the four checkers are
those of the four maps, and nothing that was there is changed.  Imported, it does not start the simulation. -/
theorem C91_module (P : Place) (s : St Sand) (h : fresh s) :
    ∃ s', sandRun P SandboxSecurity._module s = (.ok (.next []), s')
      ∧ (∀ c ∈ constants, s'.app.vars c.1 = some (textV c.2)) ∧ s'.app.vars "Public" = some (.v publicV)
      ∧ HasChecker s s' "sandbox_checker" sandboxSecurity
      ∧ HasChecker s s' "time_service_checker" (serviceSecurity "TimeService")
      ∧ HasChecker s s' "home_service_checker" (serviceSecurity "HomeDiscoveryService")
      ∧ HasChecker s s' "agent_service_checker" (serviceSecurity "AgentDiscoveryService")
      ∧ (∀ n ∈ sandSymbols, s'.app.vars n = none)
      ∧ (∀ k, k < s.nextId → s'.dicts k = s.dicts k) ∧ s.nextId ≤ s'.nextId
      ∧ s'.reg = s.reg ∧ s'.app.wired = s.app.wired ∧ s'.app.policy = s.app.policy ∧ s'.app.cls = s.app.cls ∧ s'.trace = s.trace := by
  refine ⟨moduleEnd s, fork_run ?_, ?_⟩
  · unfold sandRun SandboxSecurity._module
    unfold fresh at h
    sblsteps [h, fork_map_sandbox, fork_map_time, fork_map_home, fork_map_agent]
    rfl
  · unfold fresh at h
    unfold moduleEnd
    refine ⟨?_, ?_, ?_, ?_, ?_, ?_, ?_, ?_, ?_, ?_, ?_, ?_, ?_, ?_⟩
    · simp [constants, withVar_vars, afterMap_vars]
    · simp [withVar_vars, afterMap_vars]
    · refine ⟨s.nextId + 2, s.nextId + 1, s.nextId, by simp [withVar_vars, afterMap_vars], by omega, by omega, by omega, ?_, ?_⟩
      · intro a p
        simp only [withVar, afterMap]
        simp [lastEntry_get]
      · have : ∀ j, s.nextId ≠ s.nextId + (j + 1) := fun j => by omega
        simp [withVar, afterMap, Nat.add_assoc]
    · refine ⟨s.nextId + 3 + 2, s.nextId + 3 + 1, s.nextId + 3, by simp [withVar_vars, afterMap_vars], by omega, by omega, by omega, ?_, ?_⟩
      · intro a p
        simp only [withVar, afterMap]
        simp [lastEntry_get]
      · simp [withVar, afterMap]
    · refine ⟨s.nextId + 3 + 3 + 2, s.nextId + 3 + 3 + 1, s.nextId + 3 + 3, by simp [withVar_vars, afterMap_vars], by omega, by omega, by omega, ?_, ?_⟩
      · intro a p
        simp only [withVar, afterMap]
        simp [lastEntry_get]
      · simp [withVar, afterMap]
    · refine ⟨s.nextId + 3 + 3 + 3 + 2, s.nextId + 3 + 3 + 3 + 1, s.nextId + 3 + 3 + 3, by simp [withVar_vars], by omega, by omega, by omega, ?_, ?_⟩
      · intro a p
        simp only [withVar, afterMap]
        simp [lastEntry_get]
      · simp [withVar, afterMap]
    · simp [sandSymbols, withVar_vars, afterMap_vars, h]
    · intro k hk
      simp only [withVar, afterMap]
      have : ∀ j, k ≠ s.nextId + j := fun j => by omega
      have h0 : k ≠ s.nextId := by omega
      simp only [Nat.add_assoc, this, h0, if_false]
    · simp only [withVar_nextId, afterMap_nextId]; omega
    all_goals simp only [withVar_reg, withVar_wired, withVar_policy, withVar_cls, withVar_trace, afterMap_reg, afterMap_wired, afterMap_policy, afterMap_cls, afterMap_trace]

/-! ## The database -/

section
variable (P : Place)
theorem sbb_glob : (bodyLang P).glob = sbBodyGlob := (rfl)
theorem sbb_setGlob : (bodyLang P).setGlob = sbBodySet := (rfl)
theorem sbb_newDict : (bodyLang P).newDict = sbNewDict := (rfl)
end

/-- A variable of the class body set. -/
def withCls (s : St Sand) (n : Name) (x : PV) : St Sand :=
  { s with app := { s.app with cls := fun m => if m = n then some x else s.app.cls m } }

theorem withCls_cls (s : St Sand) (n : Name) (x : PV) (m : Name) : (withCls s n x).app.cls m = if m = n then some x else s.app.cls m := (rfl)
theorem withCls_vars (s : St Sand) (n : Name) (x : PV) : (withCls s n x).app.vars = s.app.vars := (rfl)

theorem fork_sbBodySet (n : Name) (x : PV) (k : Unit → St Sand → Res β × St Sand) (h : Exn → St Sand → Res β × St Sand) (s : St Sand) :
    fork (sbBodySet n x) k h s = k () (withCls s n x) := (rfl)

theorem fork_sbBodyGlob (n : Name) (k : PV → St Sand → Res β × St Sand) (h : Exn → St Sand → Res β × St Sand) (s : St Sand) :
    fork (sbBodyGlob n) k h s = match s.app.cls n with
      | some x => k x s
      | none => fork (sbGlob n) k h s := by
  unfold sbBodyGlob
  rw [fork_bind, fork_get]
  cases s.app.cls n <;> rfl

/-- The attributes that the body of the class makes. -/
def homes : List Name := ["origin", "jail", "valhalla"]

/-- The state the body of the class leaves. -/
def bodyEnd (s : St Sand) : St Sand :=
  let s1 := withCls s "origin" (display [.tuple [textV "any", .list [textV "All"]]])
  let s2 := withCls s1 "jail" (display [.tuple [textV "norse legend", .list [textV "Transport Agent", textV "Access Services", textV "Access Agent Service", textV "Access Home Service", textV "Transport Agent", textV "Access Agents"]],
    .tuple [textV "any", .list [textV "Access Time Services", textV "Add Agent"]]])
  withCls s2 "valhalla" (display [.tuple [textV "norse legend", .list [textV "Add Agent"]],
    .tuple [textV "any", .list [textV "Access Services", textV "Access Time Services", textV "Access Agent Service", textV "Access Home Service", textV "Transport Agent", textV "Access Agents"]]])

/-- **C91** The body of `SimulationSecurityDatabase` (examples/sandbox_security.py:61-75): the tables of its homes are those of `simulationDb`, and
it has no attributes but those and the common ones. -/
theorem C91_database (P : Place) (s : St Sand) (hc : ∀ c ∈ constants, s.app.vars c.1 = some (textV c.2)) (hn : ∀ n, s.app.cls n = none) :
    ∃ s', execs (bodyLang P) SandboxSecurity.SimulationSecurityDatabase._body none [] s = (.ok (.next []), s')
      ∧ (∀ common h, databaseOf common s'.app.cls h = if h ∈ homes then simulationDb h else if common h then .other else .missing)
      ∧ s'.app.vars = s.app.vars ∧ s'.reg = s.reg ∧ s'.dicts = s.dicts := by
  have g : ∀ n t, (n, t) ∈ constants → s.app.vars n = some (textV t) := fun n t h => hc _ h
  have g1 := g "ALL" "All" (by decide)
  have g2 := g "TransportAgent" "Transport Agent" (by decide)
  have g3 := g "AccessServices" "Access Services" (by decide)
  have g4 := g "AccessAgentService" "Access Agent Service" (by decide)
  have g5 := g "AccessHomeService" "Access Home Service" (by decide)
  have g6 := g "AccessAgents" "Access Agents" (by decide)
  have g7 := g "AccessTimeService" "Access Time Services" (by decide)
  have g8 := g "AddAgent" "Add Agent" (by decide)
  refine ⟨bodyEnd s, fork_run ?_, ?_⟩
  · unfold SandboxSecurity.SimulationSecurityDatabase._body
    pysteps [↓ea_list, sbb_glob, sbb_setGlob, sbb_newDict, sbd_cons, fork_sbBodyGlob, fork_sbBodySet, fork_sbGlob, withCls_cls, withCls_vars, hn,
      g1, g2, g3, g4, g5, g6, g7, g8]
    rfl
  · refine ⟨?_, rfl, rfl, rfl⟩
    intro common h
    unfold databaseOf bodyEnd
    simp only [withCls_cls, hn]
    have two : ∀ (a b : List String) (k : String),
        (if "any" = k then some b else none : Option (List String)).or (if "norse legend" = k then some a else none)
          = match k with | "norse legend" => some a | "any" => some b | _ => none := by
      intro a b k
      by_cases k1 : k = "any"
      · subst k1; simp
      · by_cases k2 : k = "norse legend"
        · subst k2; simp
        · have k1' : ¬ "any" = k := fun e => k1 e.symm
          have k2' : ¬ "norse legend" = k := fun e => k2 e.symm
          simp [k1', k2']
    by_cases c1 : h = "valhalla"
    · subst c1
      simp [homes, simulationDb, display, entryOf, stringsIn]
      funext k
      exact two _ _ k
    · by_cases c2 : h = "jail"
      · subst c2
        simp [homes, simulationDb, display, entryOf, stringsIn]
        funext k
        exact two _ _ k
      · by_cases c3 : h = "origin"
        · subst c3
          simp [homes, simulationDb, display, entryOf, stringsIn]
          funext k
          by_cases k1 : k = "any"
          · subst k1; simp
          · have k1' : ¬ "any" = k := fun e => k1 e.symm
            simp [k1']
        · simp [homes, c1, c2, c3]

theorem sim_ok (home : String) (tokens : List String) (perm : String) : ∃ r, sandboxCheck "All" simulationDb home tokens perm = .ok r := by
  unfold sandboxCheck
  cases hd : simulationDb home with
  | missing => exact ⟨false, rfl⟩
  | other => unfold simulationDb at hd; split at hd <;> cases hd
  | table t =>
    dsimp only
    split
    · exact ⟨true, rfl⟩
    · split
      · exact ⟨false, rfl⟩
      · exact ⟨_, rfl⟩

/-- **C91** Together: after the module and the class body, the policy grants what the tables of the file list, in the words of C46. -/
theorem C91_enforced (P : Place) (a : Nat) (perm : String) (s s1 s2 : St Sand) (common : String → Bool) (h : fresh s) (hn : ∀ n, s.app.cls n = none)
    (e1 e2 : Flow) (h1 : sandRun P SandboxSecurity._module s = (.ok e1, s1))
    (h2 : execs (bodyLang P) SandboxSecurity.SimulationSecurityDatabase._body none [] s1 = (.ok e2, s2))
    (hd : P.db = databaseOf common s2.app.cls) (hh : P.home ∈ homes ∨ common P.home = false) :
    ∃ r, run (sandLang0 P) SandboxSecurity.SimulationSecurityPolicy.checkPermission [.sym "self", .v (.str a perm), .sym "object"] s2
        = (.ok (.v (.bool r)), s2)
      ∧ (r = true ↔ Lists simulationDb P.home "any" perm ∨ Lists simulationDb P.home "any" "All"
          ∨ (P.tokens ≠ [] ∧ ∀ token ∈ P.tokens, Lists simulationDb P.home token perm)) := by
  obtain ⟨s1', m1, m2, _, _, _, _, _, m3, _, _, _, _, _, m4, _⟩ := C91_module P s h
  rw [m1] at h1
  cases h1
  obtain ⟨s2', b1, b2, b3, _⟩ := C91_database P s1 m2 (by rw [m4]; exact hn)
  rw [b1] at h2
  cases h2
  have hall := m2 ("ALL", "All") (by decide)
  have hg := m3 "getattr" (by decide)
  have hs := m3 "SimulationSecurityDatabase" (by decide)
  rw [← b3] at hall hg hs
  have hp := C91_policy P a 0 perm "All" s2 hall hg hs
  have hdb : P.db P.home = simulationDb P.home := by
    rw [hd, b2]
    by_cases hm : P.home ∈ homes
    · rw [if_pos hm]
    · have hc : common P.home = false := hh.resolve_left hm
      rw [if_neg hm, hc]
      have : P.home ≠ "origin" ∧ P.home ≠ "jail" ∧ P.home ≠ "valhalla" := by simpa [homes] using hm
      obtain ⟨x1, x2, x3⟩ := this
      unfold simulationDb
      simp
  have hsb : sandboxCheck "All" P.db P.home P.tokens perm = sandboxCheck "All" simulationDb P.home P.tokens perm := by
    unfold sandboxCheck
    rw [hdb]
  rw [hp, hsb]
  obtain ⟨r, hr⟩ := sim_ok P.home P.tokens perm
  rw [hr]
  refine ⟨r, rfl, ?_⟩
  rw [← C46_policy, hr]
  simp

/-! ## `wire_security` -/

/-- A checker registered for a class of the module `sandbox`. -/
def withReg (s : St Sand) (c : Name) (k : Val) : St Sand := { s with reg := s.reg.set (.ty c) k }

/-- The policy set. -/
def withPolicy (s : St Sand) (x : PV) : St Sand := { s with app := { s.app with policy := some x } }

/-- An attribute assigned. -/
def withAttr (s : St Sand) (c n : Name) (x : PV) : St Sand := { s with app := { s.app with wired := s.app.wired ++ [(c, n, x)] } }

theorem withReg_vars (s : St Sand) (c : Name) (k : Val) : (withReg s c k).app.vars = s.app.vars := (rfl)
theorem withReg_reg (s : St Sand) (c : Name) (k : Val) : (withReg s c k).reg = s.reg.set (.ty c) k := (rfl)
theorem withPolicy_vars (s : St Sand) (x : PV) : (withPolicy s x).app.vars = s.app.vars := (rfl)
theorem withPolicy_reg (s : St Sand) (x : PV) : (withPolicy s x).reg = s.reg := (rfl)
theorem withAttr_vars (s : St Sand) (c n : Name) (x : PV) : (withAttr s c n x).app.vars = s.app.vars := (rfl)

theorem fork_sbPolicy (P : Place) (x : PV) (kw : List (Name × PV)) (k : PV → St Sand → Res β × St Sand) (h : Exn → St Sand → Res β × St Sand) (s : St Sand) :
    fork (sbMethod P (.sym "management") "setSecurityPolicy" [x] kw) k h s = k (.v .none) (withPolicy s x) := (rfl)

theorem fork_sbDefine (P : Place) (c : Name) (v : Val) (kw : List (Name × PV)) (k : PV → St Sand → Res β × St Sand) (h : Exn → St Sand → Res β × St Sand) (s : St Sand) :
    fork (sbMethod P (.sym "checker") "defineChecker" [.bound (.sym "sandbox") c, .v v] kw) k h s
      = if s.reg.mem (.ty c) then h (.duplication (.type c)) s else k (.v .none) (withReg s c v) := by
  rw [show sbMethod P (.sym "checker") "defineChecker" [.bound (.sym "sandbox") c, .v v] kw = (do defineChecker (.type c) v; pure (.v .none)) from rfl]
  rw [fork_bind]
  unfold defineChecker
  simp only [definable]
  rw [fork_bind, fork_get, fork_ite]
  rfl

theorem fork_sbSetClass (c n : Name) (x : PV) (k : Unit → St Sand → Res β × St Sand) (h : Exn → St Sand → Res β × St Sand) (s : St Sand) :
    fork (sbSetattr (.bound (.sym "sandbox") c) n x) k h s = k () (withAttr s c n x) := (rfl)
theorem fork_sbSetModule (n : Name) (x : PV) (k : Unit → St Sand → Res β × St Sand) (h : Exn → St Sand → Res β × St Sand) (s : St Sand) :
    fork (sbSetattr (.sym "sandbox") n x) k h s = k () (withAttr s "" n x) := (rfl)

/-- The source function a value stands for. -/
def functionOf : PV → Option Name
  | .clos id _ => some id
  | _ => none

/-- The policy of the simulation is set, the four checkers are registered and nothing else is, and four functions are put in place. -/
structure WiredUp (s s' : St Sand) (c1 c2 c3 c4 : Val) : Prop where
  policy : s'.app.policy = some (.sym "SimulationSecurityPolicy")
  sandbox : s'.reg.get? (.ty "Sandbox") = some c1
  time : s'.reg.get? (.ty "TimeService") = some c2
  agents : s'.reg.get? (.ty "AgentDiscoveryService") = some c3
  homes : s'.reg.get? (.ty "HomeDiscoveryService") = some c4
  others : ∀ k, k ≠ .ty "Sandbox" → k ≠ .ty "TimeService" → k ≠ .ty "AgentDiscoveryService" → k ≠ .ty "HomeDiscoveryService" →
    s'.reg.get? k = s.reg.get? k
  attributes : s'.app.wired.map (fun w => (w.1, w.2.1, functionOf w.2.2)) = s.app.wired.map (fun w => (w.1, w.2.1, functionOf w.2.2))
    ++ [("Sandbox", "addAgent", some "wire_security.addAgent"), ("TimeGenerator", "setupAgent", some "wire_security.setupAgent"),
        ("TimeGenerator", "teardownAgent", some "wire_security.teardownAgent"), ("", "GreenerPastures", some "wire_security.GreenerPastures")]
  kept : s'.app.vars = s.app.vars ∧ s'.dicts = s.dicts ∧ s'.trace = s.trace

theorem mem_set_ne (d : PyDict Key Val) (a b : Key) (v : Val) (h : a ≠ b) : (d.set a v).mem b = d.mem b := by
  unfold PyDict.mem
  rw [PyDict.get?_set_ne d v h]

section
variable (P : Place) (s : St Sand) (c1 c2 c3 c4 : Val) (hs : ∀ n ∈ sandSymbols, s.app.vars n = none)
    (h1 : s.app.vars "sandbox_checker" = some (.v c1)) (h2 : s.app.vars "time_service_checker" = some (.v c2))
    (h3 : s.app.vars "agent_service_checker" = some (.v c3)) (h4 : s.app.vars "home_service_checker" = some (.v c4))
include hs h1 h2 h3 h4

/-- **C91** `wire_security` (examples/sandbox_security.py:160-200), when none of the classes has a checker. -/
theorem C91_wire (r1 : s.reg.mem (.ty "Sandbox") = false) (r2 : s.reg.mem (.ty "TimeService") = false)
    (r3 : s.reg.mem (.ty "AgentDiscoveryService") = false) (r4 : s.reg.mem (.ty "HomeDiscoveryService") = false) :
    ∃ s', run (sandLang P) SandboxSecurity.wire_security [] s = (.ok (.v .none), s') ∧ WiredUp s s' c1 c2 c3 c4 := by
  have g1 := hs "management" (by decide)
  have g2 := hs "checker" (by decide)
  have g3 := hs "sandbox" (by decide)
  have g4 := hs "SimulationSecurityPolicy" (by decide)
  have m1 : ∀ v, (s.reg.set (.ty "Sandbox") v).mem (.ty "TimeService") = false := fun v => by
    rw [mem_set_ne _ _ _ _ (by decide)]; exact r2
  have m2 : ∀ v w, ((s.reg.set (.ty "Sandbox") v).set (.ty "TimeService") w).mem (.ty "AgentDiscoveryService") = false := fun v w => by
    rw [mem_set_ne _ _ _ _ (by decide), mem_set_ne _ _ _ _ (by decide)]; exact r3
  have m3 : ∀ v w x, (((s.reg.set (.ty "Sandbox") v).set (.ty "TimeService") w).set (.ty "AgentDiscoveryService") x).mem (.ty "HomeDiscoveryService") = false :=
    fun v w x => by
      rw [mem_set_ne _ _ _ _ (by decide), mem_set_ne _ _ _ _ (by decide), mem_set_ne _ _ _ _ (by decide)]; exact r4
  let f1 : PV := .clos "wire_security.addAgent" []
  let f2 : PV := .clos "wire_security.setupAgent" [("addAgent", f1)]
  let f3 : PV := .clos "wire_security.teardownAgent" [("setupAgent", f2), ("addAgent", f1)]
  let f4 : PV := .clos "wire_security.GreenerPastures" [("teardownAgent", f3), ("setupAgent", f2), ("addAgent", f1)]
  refine ⟨withAttr (withAttr (withAttr (withAttr (withReg (withReg (withReg (withReg (withPolicy s (.sym "SimulationSecurityPolicy")) "Sandbox" c1)
    "TimeService" c2) "AgentDiscoveryService" c3) "HomeDiscoveryService" c4) "Sandbox" "addAgent" f1) "TimeGenerator" "setupAgent" f2)
    "TimeGenerator" "teardownAgent" f3) "" "GreenerPastures" f4, fork_run ?_, ?_⟩
  · sblsteps [SandboxSecurity.wire_security, g1, g2, g3, g4, h1, h2, h3, h4, fork_sbPolicy, fork_sbDefine, fork_sbSetClass, fork_sbSetModule,
      withReg_vars, withReg_reg, withPolicy_vars, withPolicy_reg, withAttr_vars, r1, m1, m2, m3]
    rfl
  · refine ⟨rfl, ?_, ?_, ?_, ?_, ?_, ?_, rfl, rfl, rfl⟩
    · simp only [withAttr, withReg, withPolicy]
      rw [PyDict.get?_set_ne _ _ (by decide), PyDict.get?_set_ne _ _ (by decide), PyDict.get?_set_ne _ _ (by decide), PyDict.get?_set_self]
    · simp only [withAttr, withReg, withPolicy]
      rw [PyDict.get?_set_ne _ _ (by decide), PyDict.get?_set_ne _ _ (by decide), PyDict.get?_set_self]
    · simp only [withAttr, withReg, withPolicy]
      rw [PyDict.get?_set_ne _ _ (by decide), PyDict.get?_set_self]
    · simp only [withAttr, withReg, withPolicy]
      rw [PyDict.get?_set_self]
    · intro k k1 k2 k3 k4
      simp only [withAttr, withReg, withPolicy]
      rw [PyDict.get?_set_ne _ _ (Ne.symm k4), PyDict.get?_set_ne _ _ (Ne.symm k3), PyDict.get?_set_ne _ _ (Ne.symm k2), PyDict.get?_set_ne _ _ (Ne.symm k1)]
    · simp [withAttr, withReg, withPolicy, functionOf, f1, f2, f3, f4]

/-- **C91** A second call raises at the first registration: the registry and the classes are as they were. -/
theorem C91_wire_again (r1 : s.reg.mem (.ty "Sandbox") = true) :
    run (sandLang P) SandboxSecurity.wire_security [] s = (.err (.duplication (.type "Sandbox")), withPolicy s (.sym "SimulationSecurityPolicy")) := by
  have g1 := hs "management" (by decide)
  have g2 := hs "checker" (by decide)
  have g3 := hs "sandbox" (by decide)
  have g4 := hs "SimulationSecurityPolicy" (by decide)
  refine fork_run ?_
  sblsteps [SandboxSecurity.wire_security, g1, g2, g3, g4, h1, h2, h3, h4, fork_sbPolicy, fork_sbDefine, fork_sbSetClass, fork_sbSetModule,
    withReg_vars, withReg_reg, withPolicy_vars, withPolicy_reg, withAttr_vars, r1]
  rfl
end

/-- The registered checker of a class asks for what the map lists. -/
def Guards (s : St Sand) (c : String) (m : List (Val × List Name)) : Prop :=
  ∃ i g st, getCheckerFor s (.ty c) = .checker i g st ∧ (∀ a p, (s.dicts g).get? a = some p ↔ LastEntry m a p) ∧ s.dicts st = []

/-- **C91** Loading the module and calling `wire_security` puts the sandbox and its services under the checkers of their maps. -/
theorem C91_guarded (P : Place) (s : St Sand) (h : fresh s)
    (hr : ∀ c ∈ ["Sandbox", "TimeService", "AgentDiscoveryService", "HomeDiscoveryService"], s.reg.mem (.ty c) = false) :
    ∃ e s1 s2, sandRun P SandboxSecurity._module s = (.ok e, s1) ∧ run (sandLang P) SandboxSecurity.wire_security [] s1 = (.ok (.v .none), s2)
      ∧ s2.app.policy = some (.sym "SimulationSecurityPolicy")
      ∧ Guards s2 "Sandbox" sandboxSecurity
      ∧ ∀ c ∈ ["TimeService", "AgentDiscoveryService", "HomeDiscoveryService"], Guards s2 c (serviceSecurity c) := by
  obtain ⟨s1, m1, m2, _, ⟨i1, g1, t1, a1, _, _, _, x1, y1⟩, ⟨i2, g2, t2, a2, _, _, _, x2, y2⟩, ⟨i3, g3, t3, a3, _, _, _, x3, y3⟩,
    ⟨i4, g4, t4, a4, _, _, _, x4, y4⟩, m3, _, _, m4, _⟩ := C91_module P s h
  have hm : ∀ c ∈ ["Sandbox", "TimeService", "AgentDiscoveryService", "HomeDiscoveryService"], s1.reg.mem (.ty c) = false := by rw [m4]; exact hr
  obtain ⟨s2, w1, w⟩ := C91_wire P s1 _ _ _ _ m3 a1 a2 a4 a3 (hm _ (by decide)) (hm _ (by decide)) (hm _ (by decide)) (hm _ (by decide))
  refine ⟨_, s1, s2, m1, w1, w.policy, ⟨i1, g1, t1, by unfold getCheckerFor; rw [w.sandbox]; rfl, by rw [w.kept.2.1]; exact x1, by rw [w.kept.2.1]; exact y1⟩, ?_⟩
  intro c hc
  simp only [List.mem_cons, List.not_mem_nil, or_false] at hc
  rcases hc with rfl | rfl | rfl
  · exact ⟨i2, g2, t2, by unfold getCheckerFor; rw [w.time]; rfl, by rw [w.kept.2.1]; exact x2, by rw [w.kept.2.1]; exact y2⟩
  · exact ⟨i4, g4, t4, by unfold getCheckerFor; rw [w.agents]; rfl, by rw [w.kept.2.1]; exact x4, by rw [w.kept.2.1]; exact y4⟩
  · exact ⟨i3, g3, t3, by unfold getCheckerFor; rw [w.homes]; rfl, by rw [w.kept.2.1]; exact x3, by rw [w.kept.2.1]; exact y3⟩

/-- **C91** `AgentParticipation(agent)` (examples/sandbox_security.py:115-117) and `NoSetAttr` (52). -/
theorem C91_small (X : Ctx Attrs) (a : PV) (s : St Attrs) (P : Place) (n x : PV) (t : St Sand) (hx : t.app.vars "NotAllowed" = some x) :
    run (objLang X) SandboxSecurity.AgentParticipation.__init__ [.sym "self", a] s
      = (.ok (.v .none), given s [("interaction", .v .none), ("principal", a)])
    ∧ run (sandLang0 P) SandboxSecurity.NoSetAttr [n] t = (.ok x, t) := by
  constructor <;> refine fork_run ?_
  · dsteps [SandboxSecurity.AgentParticipation.__init__, obj_setattr, oset]; rfl
  · sbsteps [SandboxSecurity.NoSetAttr, fork_sbVar hx]; rfl

/-! ## Cases -/

/-- Nothing yet. -/
def sand0 : St Sand := initial Ex.ext { vars := fun _ => none, wired := [], policy := none, cls := fun _ => none }

example : fresh sand0 := fun _ => rfl
example : ∀ c ∈ ["Sandbox", "TimeService", "AgentDiscoveryService", "HomeDiscoveryService"], sand0.reg.mem (.ty c) = false := by decide +kernel
example : LastEntry sandboxSecurity "addAgent" (.str 0 "Add Agent") := ⟨sandboxSecurity.take 2, ["addAgent"], sandboxSecurity.drop 3, rfl, by decide, by decide⟩

/-- In jail, a company of one who is known there and one who is not. -/
def jail : Place := { db := simulationDb, home := "jail", tokens := ["norse legend", "thief"] }

example : (run (sandLang0 jail) SandboxSecurity.SimulationSecurityPolicy.checkPermission [.sym "self", textV "Access Agents", .sym "object"]
    (withVar sand0 "ALL" (textV "All"))).1 = .ok (.v (.bool false)) := by
  rw [C91_policy jail 0 0 _ "All" _ rfl rfl rfl]; rfl

end ZS.Props
