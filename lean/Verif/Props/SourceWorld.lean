import Verif.Model.PyWorld
import Verif.Props.SourceSimulation

/-!
# C93: the world of examples/sandbox.py is made, from source, as the model has it
-/

namespace ZS.Props
open ZS ZS.PyC ZS.Src ZS.Spec
variable {β : Type} (hs ags : List Nat) (o : Nat)
set_option maxHeartbeats 1000000

section
theorem w0_glob : (worldLang0 hs ags o).glob = wdGlob hs ags o := (rfl)
theorem w0_getattr : (worldLang0 hs ags o).getattr = wdGetattr := (rfl)
theorem w0_setattr : (worldLang0 hs ags o).setattr = wdSetattr := (rfl)
theorem w1_glob : (worldLang1 hs ags o).glob = wdGlob hs ags o := (rfl)
theorem w1_getattr : (worldLang1 hs ags o).getattr = wdGetattr := (rfl)
theorem w1_setitem : (worldLang1 hs ags o).setitem = wdSetitem := (rfl)
theorem w1_compare : (worldLang1 hs ags o).compare = wdCompare := (rfl)
theorem w1_call : (worldLang1 hs ags o).call = wdCall := (rfl)
theorem w1_method : (worldLang1 hs ags o).method = wdMethod1 hs ags o := (rfl)
theorem w1_truth : (worldLang1 hs ags o).truth = simLang0.sbTruth' := (rfl)
theorem w1_bin : (worldLang1 hs ags o).bin = fun _ _ _ => pure (textV "") := (rfl)
theorem w1_raising (x : PV) : raising (worldLang1 hs ags o) x = (ltoExn x).getD .typeError := by
  unfold raising; rw [show (worldLang1 hs ags o).toExn = ltoExn from rfl]; cases ltoExn x <;> rfl
theorem w2_glob : (worldLang hs ags o).glob = wdGlob hs ags o := (rfl)
theorem w2_setattr : (worldLang hs ags o).setattr = wdSetattr := (rfl)
theorem w2_setitem : (worldLang hs ags o).setitem = wdSetitem := (rfl)
theorem w2_call : (worldLang hs ags o).call = wdCall := (rfl)
theorem w2_iter : (worldLang hs ags o).iter = wdIter := (rfl)
theorem w2_newDict : (worldLang hs ags o).newDict = wdNewDict := (rfl)
theorem w2_method : (worldLang hs ags o).method = wdMethod2 hs ags o := (rfl)
theorem wg_all : wdGlob hs ags o "all_homes" = pure (.tuple (hs.map fun b => boxV ⟨b, false⟩)) := (rfl)
theorem wg_agents : wdGlob hs ags o "agents" = pure (.list (ags.map agentV)) := (rfl)
theorem wg_origin : wdGlob hs ags o "origin" = pure (.slice (.v (.obj o)) (.v (.bool false))) := (rfl)
theorem wg_IService : wdGlob hs ags o "IService" = pure (.sym "IService") := (rfl)
theorem wg_SandboxError : wdGlob hs ags o "SandboxError" = pure (.sym "SandboxError") := smg_SandboxError
theorem wg_homes : wdGlob hs ags o "_homes" = pure (.sym "_homes") := smg_homes
theorem w_class (x c : Name) : wdGetattr (.bound (.sym x) c) "__class__" = pure (.bound (.v .none) c) := (rfl)
theorem w_name (c : Name) : wdGetattr (.bound (.v .none) c) "__name__" = pure (textV c) := (rfl)
theorem w_services (b : Nat) : wdGetattr (.slice (.v (.obj b)) (.v (.bool false))) "_services" = pure (bookV b "_services") := (rfl)
theorem w_sethome (x c : Name) (y : PV) : wdSetattr (.bound (.sym x) c) "_home" y = pure () := (rfl)
theorem w_error (l : List PV) (kw : List (Name × PV)) : wdCall (.sym "SandboxError") l kw = pure (.exn (simExn .sandbox)) := (rfl)
theorem w_new (c : Name) (kw : List (Name × PV)) : wdCall (.bound (.v .none) c) [] kw = pure (newServiceV c) := (rfl)
theorem w_IService (l : List PV) (kw : List (Name × PV)) : wdMethod1 hs ags o (.sym "IService") "providedBy" l kw = pure (.v (.bool true)) := (rfl)
theorem w_iterL (l : List PV) : wdIter (.list l) = pure l := (rfl)
theorem w_iterT (l : List PV) : wdIter (.tuple l) = pure l := (rfl)
theorem w_empty : wdNewDict [] = pure (.sym "{}") := (rfl)
end

section
variable (k : PV → St Sim → Res β × St Sim) (u : Unit → St Sim → Res β × St Sim) (h : Exn → St Sim → Res β × St Sim) (s : St Sim) (a b : Nat) (t c : Name) (i : Nat)
theorem fw_id : fork (wdSetattr (.part a) "id" (.v (.str i t))) u h s = u () (putAgent s a fun g => { g with id := t }) := (rfl)
theorem fw_token : fork (wdSetattr (.part a) "auth_token" (.v (.str i t))) u h s = u () (putAgent s a fun g => { g with token := t }) := (rfl)
theorem fw_home : fork (wdSetattr (.part a) "home" (.v .none)) u h s = u () (putAgent s a fun g => { g with home := none }) := (rfl)
theorem fw_action (d : Deed) : fork (wdSetattr (.part a) "_action" (.sym (deedSym d))) u h s = u () (putAgent s a fun g => { g with deed := d }) := by
  cases d <;> rfl
theorem fw_boxid : fork (wdSetattr (.slice (.v (.obj b)) (.v (.bool false))) "id" (.v (.str i t))) u h s = u () (putBox s b fun g => { g with id := t }) := (rfl)
theorem fw_services : fork (wdSetattr (.slice (.v (.obj b)) (.v (.bool false))) "_services" (.sym "{}")) u h s
    = u () (putBox s b fun g => { g with services := [] }) := (rfl)
theorem fw_agents : fork (wdSetattr (.slice (.v (.obj b)) (.v (.bool false))) "_agents" (.sym "{}")) u h s
    = u () (putBox s b fun g => { g with agents := [] }) := (rfl)
theorem fw_in : fork (wdCompare .isIn (.v (.str i t)) (bookV b "_services")) k h s = k (.v (.bool (decide (t ∈ (s.app.boxes b).services)))) s := (rfl)
theorem fw_setservice (x : Name) (ht : t ∉ (s.app.boxes b).services) : fork (wdSetitem (bookV b "_services") (.v (.str i t)) (.bound (.sym x) t)) u h s
    = u () (putBox s b fun g => { g with services := g.services ++ [t] }) := by
  have h0 : fork (wdSetitem (bookV b "_services") (.v (.str i t)) (.bound (.sym x) t)) u h s
      = u () (putBox s b fun g => { g with services := if t ∈ g.services then g.services else g.services ++ [t] }) := by
    show fork (if "_services" = "_services" ∧ t = t then _ else _) u h s = _
    rw [if_pos ⟨rfl, rfl⟩]
    rfl
  rw [h0]
  congr 1
  unfold putBox
  simp only [if_neg ht]
theorem fw_sethome : fork (wdSetitem (.sym "_homes") (.v (.str i t)) (.slice (.v (.obj b)) (.v (.bool false)))) u h s = u () (putHome s t b) := (rfl)
theorem fw_getId : wdMethod1 hs ags o (.bound (.sym "service") t) "getId" [] [] = pure (textV t) := by
  show run (worldLang0 hs ags o) Sandbox.Service.getId [newServiceV t] = _
  apply ext_fork
  intro s
  pysteps [Sandbox.Service.getId, w0_getattr, w_class, w_name, newServiceV]
theorem fw_setHome (x : PV) : wdMethod1 hs ags o (.bound (.sym "service") t) "setHome" [x] [] = pure (.v .none) := by
  show run (worldLang0 hs ags o) Sandbox.Service.setHome [newServiceV t, x] = _
  apply ext_fork
  intro s
  pysteps [Sandbox.Service.setHome, w0_setattr, w_sethome, newServiceV]
theorem fw_boxId : fork (wdMethod2 hs ags o (.slice (.v (.obj b)) (.v (.bool false))) "getId" [] []) k h s = k (textV (s.app.boxes b).id) s :=
  f3_boxId k h s b false
end

theorem putAgent_twice (s : St Sim) (a : Nat) (f g : Agent → Agent) : putAgent (putAgent s a f) a g = putAgent s a (fun x => g (f x)) := by
  unfold putAgent
  simp only [if_true]
  congr 2
  funext k
  split <;> rfl

theorem putBox_twice (s : St Sim) (b : Nat) (f g : Box → Box) : putBox (putBox s b f) b g = putBox s b (fun x => g (f x)) := by
  unfold putBox
  simp only [if_true]
  congr 2
  funext k
  split <;> rfl

theorem putBox_at (s : St Sim) (b : Nat) (f : Box → Box) : (putBox s b f).app.boxes b = f (s.app.boxes b) := if_pos rfl

/-- `pysteps` for the languages of this file. -/
syntax "wdsteps" ("[" Lean.Parser.Tactic.simpLemma,* "]")? : tactic
macro_rules
  | `(tactic| wdsteps) => `(tactic| wdsteps [])
  | `(tactic| wdsteps [$ts,*]) => `(tactic|
    pysteps [w1_glob, w1_getattr, w1_setitem, w1_compare, w1_call, w1_method, w1_truth, w1_bin, w1_raising, w2_glob, w2_setattr, w2_setitem, w2_call, w2_iter, w2_newDict, w2_method,
      smt_bool, wg_all, wg_agents, wg_origin, wg_IService, wg_SandboxError, wg_homes, w_services, w_error, w_new, w_IService, w_iterL, w_iterT, w_empty,
      fw_id, fw_token, fw_home, fw_action, fw_boxid, fw_services, fw_agents, fw_in, fw_sethome, fw_getId, fw_setHome, fw_boxId,
      boxV, agentV, bookV, textV, newServiceV, $ts,*])

/-- **C93** `Agent(id, None, token, action)` (examples/sandbox.py:91-96). -/
theorem C93_agent (a : Nat) (id token : String) (d : Deed) (s : St Sim) :
    run (worldLang hs ags o) Sandbox.Agent.__init__ [agentV a, textV id, .v .none, textV token, .sym (deedSym d)] s
      = (.ok (.v .none), putAgent s a fun _ => ⟨id, token, none, d⟩) := by
  refine fork_run ?_
  wdsteps [Sandbox.Agent.__init__]
  rw [putAgent_twice, putAgent_twice, putAgent_twice]
  rfl

/-- **C93** `Sandbox.addService` (examples/sandbox.py:152-159) refuses a second service of a name. -/
theorem C93_addService (b : Nat) (n : Name) (s : St Sim) :
    run (worldLang1 hs ags o) Sandbox.Sandbox.addService [boxV ⟨b, false⟩, newServiceV n] s
      = if n ∈ (s.app.boxes b).services then (.err (simExn .sandbox), s)
        else (.ok (.v .none), putBox s b fun g => { g with services := g.services ++ [n] }) := by
  refine fork_run ?_
  by_cases hm : n ∈ (s.app.boxes b).services
  · have hd : decide (n ∈ (s.app.boxes b).services) = true := decide_eq_true hm
    rw [if_pos hm]
    wdsteps [Sandbox.Sandbox.addService, hd]
    rfl
  · have hd : decide (n ∈ (s.app.boxes b).services) = false := decide_eq_false hm
    rw [if_neg hm]
    wdsteps [Sandbox.Sandbox.addService, hd, ↓fw_setservice _ _ _ _ _ _ _ hm]
    rfl

/-! ## Sandboxes -/

theorem call_addService (b : Nat) (n x : Name) : wdMethod2 hs ags o (.slice (.v (.obj b)) (.v (.bool false))) "addService" [.bound (.sym x) n] []
    = run (worldLang1 hs ags o) Sandbox.Sandbox.addService [boxV ⟨b, false⟩, .bound (.sym x) n] := (rfl)

theorem fork_of_ok {x : M Sim PV} {k : PV → St Sim → Res β × St Sim} {h : Exn → St Sim → Res β × St Sim} {s t : St Sim} {a : PV} (hx : x s = (.ok a, t)) :
    fork x k h s = k a t := by unfold fork; rw [hx]
theorem fork_of_err {x : M Sim PV} {k : PV → St Sim → Res β × St Sim} {h : Exn → St Sim → Res β × St Sim} {s t : St Sim} {e : Exn} (hx : x s = (.err e, t)) :
    fork x k h s = h e t := by unfold fork; rw [hx]

/-- The loop of `Sandbox.__init__`. -/
theorem service_loop (b : Nat) (kf : Flow → St Sim → Res β × St Sim) (h : Exn → St Sim → Res β × St Sim) (l : List Name) :
    ∀ (e : Env) (s : St Sim), Env.get? e "self" = some (boxV ⟨b, false⟩) → (s.app.boxes b).services.Nodup →
      (((s.app.boxes b).services ++ l).Nodup ∧ ∃ e',
        fork (forLoop (assign (worldLang hs ags o) (.loc "sf")) (fun env => execs (worldLang hs ags o)
          [.expr (.call (.attr (.loc "self") "addService") [.call (.loc "sf") []])] none env) (l.map fun n => .bound (.v .none) n) e) kf h s
          = kf (.next e') (putBox s b fun g => { g with services := g.services ++ l }))
      ∨ (¬ ((s.app.boxes b).services ++ l).Nodup ∧ ∃ e' s',
        fork (forLoop (assign (worldLang hs ags o) (.loc "sf")) (fun env => execs (worldLang hs ags o)
          [.expr (.call (.attr (.loc "self") "addService") [.call (.loc "sf") []])] none env) (l.map fun n => .bound (.v .none) n) e) kf h s
          = kf (.exc (simExn .sandbox) e') s') := by
  induction l with
  | nil =>
    intro e s _ hn
    refine .inl ⟨by simpa using hn, e, ?_⟩
    rw [List.map_nil, fl_nil]
    simp only [List.append_nil]
    congr 1
    unfold putBox
    have : (fun k => if k = b then s.app.boxes b else s.app.boxes k) = s.app.boxes := by
      funext k; split <;> simp_all
    simp only [this]
  | cons n r ih =>
    intro e s he hn
    rw [List.map_cons, fl_cons]
    have hc := C93_addService hs ags o b n s
    by_cases hm : n ∈ (s.app.boxes b).services
    · rw [if_pos hm] at hc
      refine .inr ⟨?_, ?_⟩
      · intro hd
        exact (List.nodup_append.1 hd).2.2 _ hm _ (List.mem_cons_self ..) rfl
      · wdsteps [he, call_addService, ↓fork_of_err hc]
        exact ⟨_, _, rfl⟩
    · rw [if_neg hm] at hc
      have hn' : ((s.app.boxes b).services ++ [n]).Nodup := by
        rw [List.nodup_append]
        exact ⟨hn, by simp, by rintro x hx y hy rfl; simp at hy; exact hm (hy ▸ hx)⟩
      have hi := ih (("sf", .bound (.v .none) n) :: e) (putBox s b fun g => { g with services := g.services ++ [n] }) (by wdsteps [he]) (by rw [putBox_at]; exact hn')
      rw [putBox_at, putBox_twice] at hi
      simp only [List.append_assoc, List.singleton_append] at hi
      wdsteps [he, call_addService, ↓fork_of_ok hc]
      exact hi

/-- **C93** `Sandbox(id, service_factories)` (examples/sandbox.py:121-127): no agents, and the services of the classes given, which must have different names. -/
theorem C93_sandbox (b : Nat) (id : String) (l : List Name) (s : St Sim) :
    (l.Nodup → run (worldLang hs ags o) Sandbox.Sandbox.__init__ [boxV ⟨b, false⟩, textV id, .tuple (l.map fun n => .bound (.v .none) n)] s
      = (.ok (.v .none), putBox s b fun _ => ⟨id, [], l⟩))
    ∧ (¬ l.Nodup → (run (worldLang hs ags o) Sandbox.Sandbox.__init__ [boxV ⟨b, false⟩, textV id, .tuple (l.map fun n => .bound (.v .none) n)] s).1
      = .err (simExn .sandbox)) := by
  constructor
  · intro hn
    refine fork_run ?_
    wdsteps [Sandbox.Sandbox.__init__]
    rcases service_loop (β := PV) hs ags o b (fun f => fork (afterStmt (worldLang hs ags o) [] none f) (leave okK errK) errK) errK l
      [("service_factories", .tuple (l.map fun n => .bound (.v .none) n)), ("id", textV id), ("self", boxV ⟨b, false⟩)]
      (putBox (putBox (putBox s b fun g => { g with id := id }) b fun g => { g with services := [] }) b fun g => { g with agents := [] }) rfl
      (by rw [putBox_at, putBox_at]; exact List.nodup_nil) with ⟨_, e', h2⟩ | ⟨h1, _⟩
    · rw [h2]
      simp only [putBox_twice]
      rfl
    · refine absurd ?_ h1
      rw [putBox_at, putBox_at]
      exact hn
  · intro hn
    have hr : run (worldLang hs ags o) Sandbox.Sandbox.__init__ [boxV ⟨b, false⟩, textV id, .tuple (l.map fun n => .bound (.v .none) n)] s
        = fork (run (worldLang hs ags o) Sandbox.Sandbox.__init__ [boxV ⟨b, false⟩, textV id, .tuple (l.map fun n => .bound (.v .none) n)]) okK errK s :=
      fork_run rfl
    rw [hr]
    wdsteps [Sandbox.Sandbox.__init__]
    rcases service_loop (β := PV) hs ags o b (fun f => fork (afterStmt (worldLang hs ags o) [] none f) (leave okK errK) errK) errK l
      [("service_factories", .tuple (l.map fun n => .bound (.v .none) n)), ("id", textV id), ("self", boxV ⟨b, false⟩)]
      (putBox (putBox (putBox s b fun g => { g with id := id }) b fun g => { g with services := [] }) b fun g => { g with agents := [] }) rfl
      (by rw [putBox_at, putBox_at]; exact List.nodup_nil) with ⟨h1, _⟩ | ⟨_, e', t, h2⟩
    · rw [putBox_at, putBox_at] at h1
      exact absurd h1 hn
    · rw [h2]
      rfl

/-! ## The loops of the module -/

/-- `for h in all_homes: _homes[h.getId()] = h`. -/
def homesAfter : List Nat → Sim → Sim
  | [], s => s
  | b :: r, s => homesAfter r { s with homes := s.homes.set (s.boxes b).id b }

theorem homes_loop (kf : Flow → St Sim → Res β × St Sim) (h : Exn → St Sim → Res β × St Sim) (R : Res β × St Sim) (l : List Nat) :
    ∀ (e : Env) (s : St Sim), (∀ e', kf (.next e') { s with app := homesAfter l s.app } = R) →
      fork (forLoop (assign (worldLang hs ags o) (.loc "h")) (fun env => execs (worldLang hs ags o)
        [.assign (.sub (.glo "_homes") (.call (.attr (.loc "h") "getId") [])) (.loc "h")] none env) (l.map fun b => boxV ⟨b, false⟩) e) kf h s = R := by
  induction l with
  | nil =>
    intro e s hR
    rw [List.map_nil, fl_nil]
    exact hR e
  | cons b r ih =>
    intro e s hR
    rw [List.map_cons, fl_cons]
    wdsteps
    exact ih _ _ hR

/-- `for a in agents: origin.addAgent(a)`. -/
def addEach (o : Nat) : List Nat → Sm Unit
  | [] => pure ()
  | a :: r => do
    addAgent o a
    addEach o r

theorem call_addAgent (b a : Nat) : wdMethod2 hs ags o (.slice (.v (.obj b)) (.v (.bool false))) "addAgent" [.part a] []
    = liftSm (addAgent b a) (fun _ => .v .none) := by
  refine Eq.trans (C92_add a b false) ?_
  rfl

theorem agents_loop (kf : Flow → St Sim → Res PV × St Sim) (h : Exn → St Sim → Res PV × St Sim) (hk : ∀ e t, kf (.next e) t = (.ok (.v .none), t))
    (hx : ∀ e x t, kf (.exc x e) t = (.err x, t)) (l : List Nat) :
    ∀ (e : Env) (s : St Sim),
      fork (forLoop (assign (worldLang hs ags o) (.loc "a")) (fun env => execs (worldLang hs ags o)
        [.expr (.call (.attr (.glo "origin") "addAgent") [.loc "a"])] none env) (l.map agentV) e) kf h s = liftSm (addEach o l) (fun _ => .v .none) s := by
  induction l with
  | nil =>
    intro e s
    rw [List.map_nil, fl_nil]
    exact hk _ _
  | cons a r ih =>
    intro e s
    rw [List.map_cons, fl_cons, addEach, liftSm_bind]
    wdsteps [call_addAgent]
    show _ = M.bind (liftSm (addAgent o a) id) (fun _ => liftSm (addEach o r) fun _ => PV.v Val.none) s
    unfold fork M.bind
    rw [show liftSm (addAgent o a) (fun _ => PV.v Val.none) s = match liftSm (addAgent o a) id s with
      | (.ok _, t) => (.ok (.v .none), t)
      | (.err e, t) => (.err e, t)
      | (.diverge, t) => (.diverge, t) by unfold liftSm; rcases addAgent o a s.app with ⟨_ | _, _⟩ <;> rfl]
    rcases liftSm (addAgent o a) id s with ⟨_ | _ | _, t⟩
    · exact ih _ _
    · exact hx _ _ _
    · rfl

/-- **C93** the loops of the module (examples/sandbox.py:309-310, 324-325), for any sandboxes and agents. -/
theorem C93_loops (s : St Sim) : run (worldLang hs ags o) Sandbox._loops [] s
    = liftSm (addEach o ags) (fun _ => .v .none) { s with app := homesAfter hs s.app } := by
  refine fork_run ?_
  wdsteps [Sandbox._loops]
  refine homes_loop hs ags o _ _ _ hs _ _ ?_
  intro e'
  wdsteps
  exact agents_loop hs ags o _ _ (fun _ _ => rfl) (fun _ _ _ => rfl) ags _ _

/-- **C93** with the sandboxes and agents of the example they leave the state the simulation of C61 starts from. -/
theorem C93_boot (s : St Sim) (h : s.app = { bootStart with homes := [] }) :
    run (worldLang [0, 1, 2] [0, 1, 2, 3, 4, 5] 1) Sandbox._loops [] s = (.ok (.v .none), { s with app := boot false }) := by
  rw [C93_loops, h]
  rfl

/-! ## The objects of the module -/

section
variable (bn an : String → Nat)
theorem wm_glob : (makingLang bn an).glob = wdNames := (rfl)
theorem wm_call : (makingLang bn an).call = wdMake bn an := (rfl)
theorem wm_getitem : (makingLang bn an).getitem = wdGetitem := (rfl)
theorem wm_setitem : (makingLang bn an).setitem = wdSetitem := (rfl)
theorem wm_iter : (makingLang bn an).iter = wdIter := (rfl)
theorem wm_method : (makingLang bn an).method = wdMethod2 [] [] 0 := (rfl)
theorem wn_1 : wdNames "Sandbox" = pure (.sym "Sandbox") := (rfl)
theorem wn_2 : wdNames "Agent" = pure (.sym "Agent") := (rfl)
theorem wn_3 : wdNames "action_find_time" = pure (.sym "action_find_time") := (rfl)
theorem wn_4 : wdNames "action_find_neighbors" = pure (.sym "action_find_neighbors") := (rfl)
theorem wn_5 : wdNames "action_find_homes" = pure (.sym "action_find_homes") := (rfl)
theorem wn_6 : wdNames "HomeDiscoveryService" = pure (.bound (.v .none) "HomeDiscoveryService") := (rfl)
theorem wn_7 : wdNames "AgentDiscoveryService" = pure (.bound (.v .none) "AgentDiscoveryService") := (rfl)
theorem wn_8 : wdNames "TimeService" = pure (.bound (.v .none) "TimeService") := (rfl)
theorem wn_9 : wdNames "_homes" = pure (.sym "_homes") := smg_homes
theorem wm_item (x y z : PV) : wdGetitem (.tuple [x, y, z]) (.v (.int 1)) = pure y := (rfl)

theorem make_box (i : String) (k : PV → St Sim → Res β × St Sim) (h : Exn → St Sim → Res β × St Sim) (s : St Sim) :
    fork (wdMake bn an (.sym "Sandbox") [.v (.str 0 i),
      .tuple [.bound (.v .none) "HomeDiscoveryService", .bound (.v .none) "AgentDiscoveryService", .bound (.v .none) "TimeService"]] []) k h s
      = k (.slice (.v (.obj (bn i))) (.v (.bool false)))
          (putBox s (bn i) fun _ => ⟨i, [], ["HomeDiscoveryService", "AgentDiscoveryService", "TimeService"]⟩) := by
  have hc := (C93_sandbox [] [] 0 (bn i) i ["HomeDiscoveryService", "AgentDiscoveryService", "TimeService"] s).1 (by decide)
  refine Eq.trans (fork_bind (x := run (worldLang [] [] 0) Sandbox.Sandbox.__init__ [boxV ⟨bn i, false⟩, textV i,
    .tuple (["HomeDiscoveryService", "AgentDiscoveryService", "TimeService"].map fun n => .bound (.v .none) n)]) ..) ?_
  rw [fork_of_ok hc]
  rfl

theorem make_agent (i t : String) (d : Deed) (k : PV → St Sim → Res β × St Sim) (h : Exn → St Sim → Res β × St Sim) (s : St Sim) :
    fork (wdMake bn an (.sym "Agent") [.v (.str 0 i), .v .none, .v (.str 0 t), .sym (deedSym d)] []) k h s
      = k (.part (an i)) (putAgent s (an i) fun _ => ⟨i, t, none, d⟩) := by
  have hc := C93_agent [] [] 0 (an i) i t d s
  refine Eq.trans (fork_bind (x := run (worldLang [] [] 0) Sandbox.Agent.__init__ [agentV (an i), textV i, .v .none, textV t, .sym (deedSym d)]) ..) ?_
  rw [fork_of_ok hc]
  rfl
end

/-- The objects the module makes. -/
def madeBoxes : List String := ["jail", "origin", "valhalla"]
def madeAgents : List (String × String × Deed) :=
  [("odin", "norse legend", .findTime), ("loki", "norse legend", .findNeighbors), ("thor", "norse legend", .findHomes),
   ("thucydides", "greek men", .findTime), ("archimedes", "greek men", .findNeighbors), ("prometheus", "greek men", .findHomes)]

def withBoxes (bn : String → Nat) (l : List String) (s : St Sim) : St Sim :=
  l.foldl (fun s i => putBox s (bn i) fun _ => ⟨i, [], ["HomeDiscoveryService", "AgentDiscoveryService", "TimeService"]⟩) s
def withAgents (an : String → Nat) (l : List (String × String × Deed)) (s : St Sim) : St Sim :=
  l.foldl (fun s x => putAgent s (an x.1) fun _ => ⟨x.1, x.2.1, none, x.2.2⟩) s

/-- Sandboxes registered. -/
def enrolled (l : List Nat) (s : St Sim) : St Sim := { s with app := homesAfter l s.app }

theorem module_homes (bn an : String → Nat) (kf : Flow → St Sim → Res β × St Sim) (h : Exn → St Sim → Res β × St Sim) (R : Res β × St Sim) (Q : Env → Prop)
    (hQ : ∀ e x, Q e → Q (("h", x) :: e)) (l : List Nat) :
    ∀ (e : Env) (s : St Sim), Q e → (∀ e', Q e' → kf (.next e') (enrolled l s) = R) →
      fork (forLoop (assign (makingLang bn an) (.loc "h")) (fun env => execs (makingLang bn an)
        [.assign (.sub (.glo "_homes") (.call (.attr (.loc "h") "getId") [])) (.loc "h")] none env) (l.map fun b => .slice (.v (.obj b)) (.v (.bool false))) e) kf h s
        = R := by
  induction l with
  | nil =>
    intro e s he hR
    rw [List.map_nil, fl_nil]
    exact hR e he
  | cons b r ih =>
    intro e s he hR
    rw [List.map_cons, fl_cons]
    wdsteps [wm_glob, wm_method, wm_setitem, wn_9]
    exact ih _ _ (hQ _ _ he) hR

theorem module_agents (bn an : String → Nat) (o : Nat) (kf : Flow → St Sim → Res PV × St Sim) (h : Exn → St Sim → Res PV × St Sim)
    (hk : ∀ e t, kf (.next e) t = (.ok (.v .none), t)) (hx : ∀ e x t, kf (.exc x e) t = (.err x, t)) (l : List Nat) :
    ∀ (e : Env) (s : St Sim), Env.get? e "origin" = some (boxV ⟨o, false⟩) →
      fork (forLoop (assign (makingLang bn an) (.loc "a")) (fun env => execs (makingLang bn an)
        [.expr (.call (.attr (.loc "origin") "addAgent") [.loc "a"])] none env) (l.map .part) e) kf h s = liftSm (addEach o l) (fun _ => .v .none) s := by
  induction l with
  | nil =>
    intro e s _
    rw [List.map_nil, fl_nil]
    exact hk _ _
  | cons a r ih =>
    intro e s he
    rw [List.map_cons, fl_cons, addEach, liftSm_bind]
    wdsteps [call_addAgent, wm_method, he]
    show _ = M.bind (liftSm (addAgent o a) id) (fun _ => liftSm (addEach o r) fun _ => PV.v Val.none) s
    unfold fork M.bind
    rw [show liftSm (addAgent o a) (fun _ => PV.v Val.none) s = match liftSm (addAgent o a) id s with
      | (.ok _, t) => (.ok (.v .none), t)
      | (.err e, t) => (.err e, t)
      | (.diverge, t) => (.diverge, t) by unfold liftSm; rcases addAgent o a s.app with ⟨_ | _, _⟩ <;> rfl]
    rcases liftSm (addAgent o a) id s with ⟨_ | _ | _, t⟩
    · exact ih _ _ (by wdsteps [he])
    · exact hx _ _ _
    · rfl

/-- **C93** the end of the module (examples/sandbox.py:212-325), in any state. -/
theorem C93_module (bn an : String → Nat) (s : St Sim) : run (makingLang bn an) Sandbox._world [] s
    = liftSm (addEach (bn "origin") (madeAgents.map fun x => an x.1)) (fun _ => .v .none)
        (withAgents an madeAgents (enrolled (madeBoxes.map bn) (withBoxes bn madeBoxes s))) := by
  refine fork_run ?_
  have h1 := fun i t => make_agent (β := PV) bn an i t .findTime
  have h2 := fun i t => make_agent (β := PV) bn an i t .findNeighbors
  have h3 := fun i t => make_agent (β := PV) bn an i t .findHomes
  simp only [deedSym] at h1 h2 h3
  wdsteps [Sandbox._world, wm_glob, wm_call, wm_getitem, wm_iter, wn_1, wn_2, wn_3, wn_4, wn_5, wn_6, wn_7, wn_8, wm_item, make_box]
  simp only [withAgents, madeAgents, withBoxes, madeBoxes, List.foldl, List.map]
  refine module_homes bn an _ _ _ (fun e => Env.get? e "origin" = some (boxV ⟨bn "origin", false⟩)) ?_ [bn "jail", bn "origin", bn "valhalla"] _ _ rfl ?_
  · intro e x he
    wdsteps [he]
  · generalize enrolled _ _ = t
    intro e' he
    wdsteps [wm_glob, wm_call, wm_getitem, wm_iter, wn_1, wn_2, wn_3, wn_4, wn_5, wn_6, wn_7, wn_8, h1, h2, h3, wm_item]
    generalize putAgent _ (an "prometheus") _ = u
    refine module_agents bn an (bn "origin") _ _ ?_ ?_ [an "odin", an "loki", an "thor", an "thucydides", an "archimedes", an "prometheus"] _ u ?_
    · intro _ _
      rfl
    · intro _ _ _
      rfl
    · wdsteps [he]

/-- **C93** with the objects numbered as in the model, the module leaves the state the simulation of C61 starts from, whatever the objects were before. -/
theorem C93_start (bn an : String → Nat) (hb : madeBoxes.map bn = [0, 1, 2]) (ha : (madeAgents.map fun x => an x.1) = [0, 1, 2, 3, 4, 5]) (s : St Sim)
    (h1 : ∀ k, 6 ≤ k → s.app.agents k = bootAgents k) (h2 : ∀ k, 3 ≤ k → s.app.boxes k = bootBoxes k) (h3 : s.app.homes = []) (h4 : s.app.secured = false)
    (h5 : s.app.acting = none) : run (makingLang bn an) Sandbox._world [] s = (.ok (.v .none), { s with app := boot false }) := by
  have e1 : bn "jail" = 0 ∧ bn "origin" = 1 ∧ bn "valhalla" = 2 := by simpa [madeBoxes] using hb
  have e2 : an "odin" = 0 ∧ an "loki" = 1 ∧ an "thor" = 2 ∧ an "thucydides" = 3 ∧ an "archimedes" = 4 ∧ an "prometheus" = 5 := by simpa [madeAgents] using ha
  have hs : withAgents an madeAgents (enrolled (madeBoxes.map bn) (withBoxes bn madeBoxes s)) = { s with app := bootStart } := by
    simp only [withAgents, madeAgents, withBoxes, madeBoxes, List.foldl, List.map, e1, e2]
    have hb : ∀ (f : Nat → Box), (∀ k, f k = bootBoxes k) → f = bootBoxes := fun f h => funext h
    have ha : ∀ (f : Nat → Agent), (∀ k, f k = bootAgents k) → f = bootAgents := fun f h => funext h
    unfold putAgent enrolled putBox
    simp only [homesAfter]
    unfold bootStart
    congr 1
    rw [Sim.mk.injEq]
    refine ⟨ha _ ?_, hb _ ?_, ?_, h4, h5⟩
    · intro k
      rcases k with _ | _ | _ | _ | _ | _ | k <;> try rfl
      exact h1 _ (by omega)
    · intro k
      rcases k with _ | _ | _ | k <;> try rfl
      exact h2 _ (by omega)
    · rw [h3]
      rfl
  rw [C93_module, hs, ha, e1.2.1]
  rfl

/-! ## Examples -/

/-- A sandbox with the services of the example, and one that is refused. -/
example (s : St Sim) : run (worldLang hs ags o) Sandbox.Sandbox.__init__
    [boxV ⟨1, false⟩, textV "origin", .tuple (["HomeDiscoveryService", "AgentDiscoveryService", "TimeService"].map fun n => .bound (.v .none) n)] s
    = (.ok (.v .none), putBox s 1 fun _ => bootBoxes 1) :=
  (C93_sandbox hs ags o 1 "origin" _ s).1 (by decide)

example (s : St Sim) : (run (worldLang hs ags o) Sandbox.Sandbox.__init__
    [boxV ⟨1, false⟩, textV "origin", .tuple (["TimeService", "TimeService"].map fun n => .bound (.v .none) n)] s).1 = .err (simExn .sandbox) :=
  (C93_sandbox hs ags o 1 "origin" _ s).2 (by decide)

example (s : St Sim) : run (worldLang hs ags o) Sandbox.Agent.__init__
    [agentV 1, textV "loki", .v .none, textV "norse legend", .sym "action_find_neighbors"] s = (.ok (.v .none), putAgent s 1 fun _ => bootAgents 1) :=
  C93_agent hs ags o 1 "loki" "norse legend" .findNeighbors s

/-- A service already there is refused, another is added at the end. -/
example (s : St Sim) (h : s.app = bootStart) :
    run (worldLang1 hs ags o) Sandbox.Sandbox.addService [boxV ⟨1, false⟩, newServiceV "TimeService"] s = (.err (simExn .sandbox), s)
    ∧ (run (worldLang1 hs ags o) Sandbox.Sandbox.addService [boxV ⟨1, false⟩, newServiceV "Weather"] s).1 = .ok (.v .none) := by
  rw [C93_addService, C93_addService, h, if_pos (by decide), if_neg (by decide)]
  exact ⟨rfl, rfl⟩

/-- An agent listed twice stops the loop. -/
example (s : St Sim) (h : s.app = bootStart) : (run (worldLang [0] [2, 2] 1) Sandbox._loops [] s).1 = .err (simExn .sandbox) := by
  rw [C93_loops, h]
  rfl

/-- The numbers of the model, in a state where the agents are not made yet. -/
example (s : St Sim) (h : s.app = { bootStart with homes := [], agents := fun k => if k < 6 then ⟨"", "", some ⟨7, true⟩, .findTime⟩ else bootAgents k }) :
    run (makingLang (fun i => madeBoxes.idxOf i) (fun i => (madeAgents.map Prod.fst).idxOf i)) Sandbox._world [] s
      = (.ok (.v .none), { s with app := boot false }) := by
  refine C93_start _ _ (by decide) (by decide) s ?_ ?_ (by rw [h]) (by rw [h]; rfl) (by rw [h]; rfl)
  · intro k hk
    rw [h]
    exact if_neg (by omega)
  · intro k _
    rw [h]
    rfl

end ZS.Props
