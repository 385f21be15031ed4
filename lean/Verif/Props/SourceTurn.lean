import Verif.Model.PyTurn
import Verif.Props.Simulation
import Verif.Props.SourceSimulation
import Verif.Props.SourceWorld

/-!
# C94: a turn of the simulation in which nobody wants to move, from source
-/

namespace ZS.Props
open ZS ZS.PyC ZS.Src ZS.Spec
variable {β : Type}
set_option maxHeartbeats 1000000

section
theorem tu_glob : turnLang.glob = turnGlob := (rfl)
theorem tu_getattr : turnLang.getattr = turnGetattr := (rfl)
theorem tu_call : turnLang.call = turnCall := (rfl)
theorem tu_iter : turnLang.iter = turnIter := (rfl)
theorem tu_method : turnLang.method = turnMethod := (rfl)
theorem tu_catches (c : PV) (e : Exn) : turnLang.catches c e = true := (rfl)
theorem tu_bin (o : Name) (x y : PV) : turnLang.bin o x y = pure (textV "") := (rfl)
theorem tg_1 : turnGlob "_homes" = pure (.sym "_homes") := (rfl)
theorem tg_2 : turnGlob "Exception" = pure (.sym "Exception") := (rfl)
theorem tg_3 : turnGlob "print" = pure (.sym "print") := (rfl)
theorem tg_4 : turnGlob "filter" = pure (.sym "filter") := (rfl)
theorem tg_5 : turnGlob "WanderLust" = pure (.sym "WanderLust") := (rfl)
theorem tc_print (l : List PV) (kw : List (Name × PV)) : turnCall (.sym "print") l kw = pure (.v .none) := (rfl)
theorem tc_filter (l : List PV) (n : Name) (kw : List (Name × PV)) : turnCall (.sym "filter") [.sym "WanderLust", .bound (.list l) n] kw = pure (.list []) := (rfl)
theorem ta_action (a : Nat) : turnGetattr (.part a) "_action" = pure (.bound (.part a) "_action") := (rfl)
theorem ta_name (a : Nat) (n : Name) : turnGetattr (.bound (.part a) n) "__name__" = pure (textV "") := (rfl)
theorem ti_view (l : List PV) (n : Name) : turnIter (.bound (.list l) n) = pure l := (rfl)
theorem ti_list (l : List PV) : turnIter (.list l) = pure l := (rfl)
theorem tm_setup (a : Nat) : turnMethod (.sym "self") "setupAgent" [.part a] [] = liftSm (setupAgent a) (fun _ => .v .none) := by
  funext s
  show (if s.app.secured then run simLang3 SandboxSecurity.wire_security.setupAgent [.sym "self", agentV a]
    else run simLang3 Sandbox.TimeGenerator.setupAgent [.sym "self", agentV a] : M Sim PV) s = _
  cases hs : s.app.secured
  · exact (C92_setup (.sym "self") a s).1 hs
  · exact (C92_setup (.sym "self") a s).2 hs
theorem tm_teardown (a : Nat) : turnMethod (.sym "self") "teardownAgent" [.part a] [] = liftSm teardownAgent (fun _ => .v .none) := by
  funext s
  show (if s.app.secured then run simLang3 SandboxSecurity.wire_security.teardownAgent [.sym "self", agentV a]
    else run simLang3 Sandbox.TimeGenerator.teardownAgent [.sym "self", agentV a] : M Sim PV) s = _
  cases hs : s.app.secured
  · exact (C92_teardown (.sym "self") a s).1 hs
  · exact (C92_teardown (.sym "self") a s).2 hs
theorem tm_action (a : Nat) : turnMethod (.part a) "action" [] [] = liftSm (act a) (fun _ => .v .none) := C92_act a
theorem tm_homes (k : PV → St Sim → Res β × St Sim) (h : Exn → St Sim → Res β × St Sim) (s : St Sim) :
    fork (turnMethod (.sym "_homes") "values" [] []) k h s = k (.bound (.list (s.app.homes.map fun p => boxV ⟨p.2, false⟩)) "view") s := (rfl)
theorem tm_agents (b : Nat) (k : PV → St Sim → Res β × St Sim) (h : Exn → St Sim → Res β × St Sim) (s : St Sim) :
    fork (turnMethod (.slice (.v (.obj b)) (.v (.bool false))) "getAgents" [] []) k h s
      = k (.bound (.list ((s.app.boxes b).agents.map fun p => .part p.2)) "view") s := by
  rw [show turnMethod (.slice (.v (.obj b)) (.v (.bool false))) "getAgents" [] [] = _ from call_getAgents b false]
  show k (viewV (((s.app.boxes b).agents.map Prod.snd).map agentV)) s = _
  rw [List.map_map]
  rfl
end

theorem fork_liftOk {α : Type} {x : Sm α} {f : α → PV} {k : PV → St Sim → Res β × St Sim} {h : Exn → St Sim → Res β × St Sim} {s : St Sim} {a : α} {t : Sim}
    (hx : x s.app = (.ok a, t)) : fork (liftSm x f) k h s = k (f a) { s with app := t } := by unfold fork liftSm; rw [hx]
theorem fork_liftErr {α : Type} {x : Sm α} {f : α → PV} {k : PV → St Sim → Res β × St Sim} {h : Exn → St Sim → Res β × St Sim} {s : St Sim} {e : SimErr} {t : Sim}
    (hx : x s.app = (.error e, t)) : fork (liftSm x f) k h s = h (simExn e) { s with app := t } := by unfold fork liftSm; rw [hx]

/-- What the loops need to know about the local variables. -/
def Bound (b : Nat) (x : PV) (e : Env) : Prop :=
  Env.get? e "self" = some (.sym "self") ∧ Env.get? e "h" = some (.slice (.v (.obj b)) (.v (.bool false))) ∧ Env.get? e "agents" = some x

theorem get_less {e : Env} {n m : Name} (h : m ≠ n) : Env.get? (e.less n) m = Env.get? e m := by
  unfold Env.less Env.drop
  induction e with
  | nil => rfl
  | cons p r ih =>
    by_cases c : p.1 = n
    · rw [List.filter_cons_of_neg (by simp [c]), ih]
      have : p.1 ≠ m := fun x => h (x ▸ c)
      simp [Env.get?, this]
    · rw [List.filter_cons_of_pos (by simp [c])]
      simp only [Env.get?, ih]

theorem print_line (env : Env) (k : PV → St Sim → Res β × St Sim) (h : Exn → St Sim → Res β × St Sim) (s : St Sim) :
    fork (eval turnLang (.call (.glo "print") []) env) k h s = k (.v .none) s := by
  rw [eval.eq_def]
  rfl

/-- The statements of the first inner loop. -/
def actBody : List Stmt :=
  match Sandbox.TimeGenerator.turn.body with
  | [.for _ _ [_, .for _ _ l, _, _]] => l
  | _ => []

theorem act_loop (b : Nat) (x : PV) (kf : Flow → St Sim → Res β × St Sim) (h : Exn → St Sim → Res β × St Sim) (R : Res β × St Sim) (l : List Nat) :
    ∀ (e : Env) (s : St Sim), Bound b x e →
      (∀ e' t, Bound b x e' → actAll l s.app = (.ok (), t) → kf (.next e') { s with app := t } = R) →
      (∀ e' y t, actAll l s.app = (.error y, t) → kf (.exc (simExn y) e') { s with app := t } = R) →
      fork (forLoop (assign turnLang (.loc "a")) (fun env => execs turnLang actBody none env) (l.map .part) e) kf h s = R := by
  induction l with
  | nil =>
    intro e s he h1 _
    rw [List.map_nil, fl_nil]
    exact h1 e s.app he rfl
  | cons a r ih =>
    intro e s he h1 h2
    rw [List.map_cons, fl_cons]
    obtain ⟨e1, e2, e3⟩ := he
    rcases hs : setupAgent a s.app with ⟨y | _, t1⟩
    · have h0 : actAll (a :: r) s.app = (.error y, t1) := by
        simp only [actAll, sm_bind, hs]
      pysteps [actBody, Sandbox.TimeGenerator.turn, e1, tu_method, tm_setup, ↓fork_liftErr hs]
      exact h2 _ _ _ h0
    · have ht : ∀ t2 : Sim, ∃ t3, teardownAgent t2 = (.ok (), t3) := by
        intro t2
        simp only [teardownAgent, sm_bind, sm_read, id]
        split <;> exact ⟨_, rfl⟩
      rcases ha : act a t1 with ⟨y | v, t2⟩
      · obtain ⟨t3, h3⟩ := ht t2
        have h0 : actAll (a :: r) s.app = actAll r t3 := by
          simp only [actAll, sm_bind, hs, Sm.attempt, ha, sm_pure, h3]
        pysteps [actBody, Sandbox.TimeGenerator.turn, e1, e2, tu_method, tu_glob, tu_call, tu_getattr, tu_catches, tu_bin, tg_1, tg_2, tg_3, tc_print, ta_action, ta_name, textV, tm_setup, tm_action, tm_teardown,
          ↓fork_liftOk hs, print_line, ↓fork_liftErr (s := { s with app := t1 }) ha, ↓fork_liftOk (s := { s with app := t2 }) h3, get_less, ↓reduceIte]
        refine ih _ _ ⟨?_, ?_, ?_⟩ (fun e' t hb he => h1 e' t hb (h0.trans he)) (fun e' y t he => h2 e' y t (h0.trans he))
        · rw [get_less (by decide)]; pysteps [e1]
        · rw [get_less (by decide)]; pysteps [e2]
        · rw [get_less (by decide)]; pysteps [e3]
      · obtain ⟨t3, h3⟩ := ht t2
        have h0 : actAll (a :: r) s.app = actAll r t3 := by
          simp only [actAll, sm_bind, hs, Sm.attempt, ha, sm_pure, h3]
        pysteps [actBody, Sandbox.TimeGenerator.turn, e1, e2, tu_method, tm_setup, tm_action, tm_teardown,
          ↓fork_liftOk hs, ↓fork_liftOk (s := { s with app := t1 }) ha, ↓fork_liftOk (s := { s with app := t2 }) h3]
        refine ih _ _ ⟨?_, ?_, ?_⟩ (fun e' t hb he => h1 e' t hb (h0.trans he)) (fun e' y t he => h2 e' y t (h0.trans he))
        · pysteps [e1]
        · pysteps [e2]
        · pysteps [e3]

theorem actAll_ok {l : List Nat} {s t : Sim} (h : actAll l s = (.ok (), t)) : t = s := by
  by_cases hc : s.secured = true → s.acting = none
  · rw [actAll_run l s hc] at h
    exact (Prod.mk.inj h).2.symm
  · have h1 : s.secured = true := by
      by_contra c
      exact hc fun x => absurd x c
    have h2 : s.acting ≠ none := fun x => hc fun _ => x
    cases l with
    | nil => exact (Prod.mk.inj h).2.symm
    | cons a r =>
      rw [actAll_stuck a r s h1 h2] at h
      exact absurd (Prod.mk.inj h).1 (by simp)

theorem quiet_moves (g : Nat → Sm Ref) (b n : Nat) (bound : Option Ref) (s : Sim) (hn : (s.boxes b).agents.length = n) (l : List Nat) :
    moveAll g (fun _ _ => false) b n l bound s = (.ok bound, s) := by
  induction l with
  | nil => simp only [moveAll, sm_bind, sm_read, id, hn, ne_eq, not_true_eq_false, if_false, sm_pure]
  | cons a r ih => simp only [moveAll, sm_bind, sm_read, id, hn, ne_eq, not_true_eq_false, if_false, Bool.false_eq_true, ih]

/-- The statements of the loop over the homes. -/
def homeBody : List Stmt :=
  match Sandbox.TimeGenerator.turn.body with
  | [.for _ _ l] => l
  | _ => []

theorem turn_loop (g : Nat → Sm Ref) (kf : Flow → St Sim → Res β × St Sim) (h : Exn → St Sim → Res β × St Sim) (R : Res β × St Sim) (bs : List Nat) :
    ∀ (e : Env) (s : St Sim), Env.get? e "self" = some (.sym "self") →
      (∀ e' t, turnHomes g (fun _ _ => false) bs none s.app = (.ok (), t) → kf (.next e') { s with app := t } = R) →
      (∀ e' y t, turnHomes g (fun _ _ => false) bs none s.app = (.error y, t) → kf (.exc (simExn y) e') { s with app := t } = R) →
      fork (forLoop (assign turnLang (.loc "h")) (fun env => execs turnLang homeBody none env) (bs.map fun b => .slice (.v (.obj b)) (.v (.bool false))) e) kf h s = R := by
  induction bs with
  | nil =>
    intro e s he h1 _
    rw [List.map_nil, fl_nil]
    exact h1 e s.app rfl
  | cons b r ih =>
    intro e s he h1 h2
    rw [List.map_cons, fl_cons]
    have hl : ((s.app.boxes b).agents.map fun p => PV.part p.2) = ((s.app.boxes b).agents.map Prod.snd).map PV.part := by rw [List.map_map]; rfl
    pysteps [homeBody, Sandbox.TimeGenerator.turn, tu_method, tu_iter, tm_agents, ti_view, hl]
    refine act_loop b (.bound (.list (((s.app.boxes b).agents.map Prod.snd).map PV.part)) "view") _ _ _ ((s.app.boxes b).agents.map Prod.snd) _ _ ⟨by pysteps [he], by pysteps, by pysteps⟩ ?_ ?_
    · rintro e' t ⟨b1, b2, b3⟩ ht
      obtain rfl := actAll_ok ht
      have h0 : turnHomes g (fun _ _ => false) (b :: r) none s.app = turnHomes g (fun _ _ => false) r none s.app := by
        simp only [turnHomes, sm_bind, sm_read, ht, quiet_moves g b _ none s.app (List.length_map ..).symm]
      pysteps [tu_glob, tu_call, tu_iter, tg_4, tg_5, b3, tc_filter, ti_list]
      exact ih _ _ (by pysteps [b1]) (fun e' t x => h1 e' t (h0.trans x)) (fun e' y t x => h2 e' y t (h0.trans x))
    · intro e' y t ht
      have h0 : turnHomes g (fun _ _ => false) (b :: r) none s.app = (.error y, t) := by
        simp only [turnHomes, sm_bind, sm_read, ht]
      pysteps
      exact h2 _ _ _ h0

/-- **C94** `TimeGenerator.turn` (examples/sandbox.py:249-281) when nobody wants to move, for either `GreenerPastures`. -/
theorem C94_turn (g : Nat → Sm Ref) : run turnLang Sandbox.TimeGenerator.turn [.sym "self"] = liftSm (turn g fun _ _ => false) (fun _ => .v .none) := by
  funext s
  refine fork_run ?_
  have hl : (s.app.homes.map fun p => boxV ⟨p.2, false⟩) = (s.app.homes.map Prod.snd).map fun b => PV.slice (.v (.obj b)) (.v (.bool false)) := by
    rw [List.map_map]; rfl
  have ht : turn g (fun _ _ => false) s.app = turnHomes g (fun _ _ => false) (s.app.homes.map Prod.snd) none s.app := rfl
  pysteps [Sandbox.TimeGenerator.turn, tu_method, tu_glob, tg_1, tu_iter, tm_homes, ti_view, hl]
  refine turn_loop g _ _ _ (s.app.homes.map Prod.snd) _ _ (by pysteps) ?_ ?_
  · intro e' t h
    unfold liftSm
    rw [ht, h]
    rfl
  · intro e' y t h
    unfold liftSm
    rw [ht, h]
    rfl

/-- **C94** such a turn changes nothing: whatever the agents are refused is reported and forgotten, and each interaction is ended. -/
theorem C94_quiet (s : St Sim) (h : s.app.secured = true → s.app.acting = none) :
    run turnLang Sandbox.TimeGenerator.turn [.sym "self"] s = (.ok (.v .none), s) := by
  have hq : ∀ bs : List Nat, turnHomes greenerPastures (fun _ _ => false) bs none s.app = (.ok (), s.app) := by
    intro bs
    induction bs with
    | nil => rfl
    | cons b r ih =>
      simp only [turnHomes, sm_bind, sm_read, actAll_run _ s.app h, quiet_moves greenerPastures b _ none s.app (List.length_map ..).symm, ih]
  rw [C94_turn greenerPastures]
  unfold liftSm
  rw [show turn greenerPastures (fun _ _ => false) s.app = _ from hq (s.app.homes.map Prod.snd)]

/-- **C94** with an interaction running and an agent at the first home the turn stops at once: `newInteraction` refuses. -/
theorem C94_running (s : St Sim) (n : String) (b : Nat) (r : PyDict String Nat) (h1 : s.app.secured = true) (h2 : s.app.acting ≠ none)
    (h3 : s.app.homes = (n, b) :: r) (h4 : (s.app.boxes b).agents ≠ []) :
    run turnLang Sandbox.TimeGenerator.turn [.sym "self"] s = (.err .existingInteraction, s) := by
  rw [C94_turn greenerPastures]
  have h0 : turn greenerPastures (fun _ _ => false) s.app = (.error .assertion, s.app) := by
    obtain ⟨p, q, hp⟩ := List.exists_cons_of_ne_nil h4
    show turnHomes _ _ (s.app.homes.map Prod.snd) none s.app = _
    rw [h3]
    simp only [List.map_cons, turnHomes, sm_bind, sm_read, hp, actAll_stuck p.2 _ s.app h1 h2]
  unfold liftSm
  rw [h0]
  rfl

/-! ## Histories -/

/-- What happens in the simulation. -/
inductive Happening where
  | turn
  | move (m : Travel)

/-- A history, by the functions of the source. -/
def srcHistory : List Happening → St Sim → St Sim
  | [], s => s
  | .turn :: r, s => srcHistory r (run turnLang Sandbox.TimeGenerator.turn [.sym "self"] s).2
  | .move m :: r, s => srcHistory r (srcTravel m s).2

/-- Its moves. -/
def travelsOf : List Happening → List Travel
  | [] => []
  | .turn :: r => travelsOf r
  | .move m :: r => m :: travelsOf r

theorem move_acting (m : Travel) (s : Sim) : (m.run s).2.acting = s.acting := by
  rcases move_cases m s with h | ⟨c, a, d, r, s1, _, _, _, h⟩ | ⟨b, a, _, _, _, h⟩ <;> rw [h] <;> rfl

/-- **C94** In a history of the source only the moves matter. -/
theorem C94_history (l : List Happening) (s : St Sim) (h : s.app.secured = true → s.app.acting = none) :
    (srcHistory l s).app = runTravels (travelsOf l) s.app := by
  induction l generalizing s with
  | nil => rfl
  | cons x r ih =>
    cases x with
    | turn =>
      show (srcHistory r (run turnLang Sandbox.TimeGenerator.turn [.sym "self"] s).2).app = _
      rw [C94_quiet s h]
      exact ih s h
    | move m =>
      have h0 : (srcTravel m s).2.app = (m.run s.app).2 := C92_travels [m] s
      show (srcHistory r (srcTravel m s).2).app = runTravels (travelsOf r) (m.run s.app).2
      rw [ih, h0]
      rw [h0, (move_constant m s.app).1, move_acting]
      exact h

theorem travels_wired (ms : List Travel) (s : Sim) (h : Wired s) : Wired (runTravels ms s) := by
  induction ms generalizing s with
  | nil => exact h
  | cons m ms ih => exact ih _ (move_wired m s h)

theorem travels_constant (ms : List Travel) (s : Sim) :
    (∀ a, ((runTravels ms s).agents a).token = (s.agents a).token) ∧ ∀ b, ((runTravels ms s).boxes b).id = (s.boxes b).id := by
  induction ms generalizing s with
  | nil => exact ⟨fun _ => rfl, fun _ => rfl⟩
  | cons m ms ih =>
    have hc := move_constant m s
    exact ⟨fun a => ((ih _).1 a).trans (hc.2.1 a).2, fun b => ((ih _).2 b).trans (hc.2.2 b)⟩

theorem start_home (a : Nat) (h : a < 6) : ((boot true).agents a).home = some ⟨1, false⟩ := by
  match a, h with
  | 0, _ | 1, _ | 2, _ | 3, _ | 4, _ | 5, _ => rfl

/-- The module executed in a state, and `wire_security` called. -/
def wiredAfter (bn an : String → Nat) (s : St Sim) : St Sim :=
  let t := (run (makingLang bn an) Sandbox._world [] s).2
  { t with app := { t.app with secured := true } }

/-- **C94** From the execution of the module on, all by the functions of the source: an agent of the module whom no norse legend sends is never in valhalla, and
never leaves jail. -/
theorem C94_closed (bn an : String → Nat) (hb : madeBoxes.map bn = [0, 1, 2]) (ha : (madeAgents.map fun x => an x.1) = [0, 1, 2, 3, 4, 5]) (s : St Sim)
    (h1 : ∀ k, 6 ≤ k → s.app.agents k = bootAgents k) (h2 : ∀ k, 3 ≤ k → s.app.boxes k = bootBoxes k) (h3 : s.app.homes = []) (h4 : s.app.secured = false)
    (h5 : s.app.acting = none) (l l' : List Happening) (a : Nat) (h6 : a < 6)
    (hm : SentWithout "norse legend" (wiredAfter bn an s).app a (travelsOf (l ++ l'))) :
    ¬ Lives (srcHistory l (wiredAfter bn an s)).app a 2
    ∧ (Lives (srcHistory l (wiredAfter bn an s)).app a 0 → Lives (srcHistory (l ++ l') (wiredAfter bn an s)).app a 0) := by
  have hw : (wiredAfter bn an s).app = boot true := by
    unfold wiredAfter
    rw [C93_start bn an hb ha s h1 h2 h3 h4 h5]
    rfl
  have hq : (wiredAfter bn an s).app.secured = true → (wiredAfter bn an s).app.acting = none := by
    rw [hw]; intro _; rfl
  have happ : ∀ l l' : List Happening, travelsOf (l ++ l') = travelsOf l ++ travelsOf l' := by
    intro l l'
    induction l with
    | nil => rfl
    | cons x r ih => cases x <;> simp [travelsOf, ih]
  have hrun : ∀ (x y : List Travel) (t : Sim), runTravels (x ++ y) t = runTravels y (runTravels x t) := by
    intro x y t
    induction x generalizing t with
    | nil => rfl
    | cons m r ih => exact ih _
  rw [C94_history l _ hq, C94_history (l ++ l') _ hq, happ, hrun]
  rw [happ, hw] at hm
  rw [hw]
  obtain ⟨b1, b2, b3⟩ := C61_boot true
  have hhome : ((boot true).agents a).home ≠ none ∧ ¬ Lives (boot true) a 2 := by
    have hs := start_home a h6
    refine ⟨by rw [hs]; simp, ?_⟩
    rintro ⟨r, hr, hb⟩
    rw [hs] at hr
    cases hr
    cases hb
  have hk := travels_constant (travelsOf l) (boot true)
  constructor
  · intro hl
    exact hhome.2 (C61_valhalla (boot true) b1 b2 b3 (travelsOf l) a 2 rfl hhome.1 (fun c d x => hm c d (List.mem_append_left _ x)) hl)
  · intro hl
    refine C61_prison _ (C61_population _ b1 b2 _) (runTravels_distinct _ _ b2) (travels_wired _ _ b3) (travelsOf l') a 0 ?_ hl ?_
    · rw [hk.2]; rfl
    · intro c d x
      rw [hk.1]
      exact hm c d (List.mem_append_right _ x)

/-- The wired example of the package, and one with an interaction left running. -/
example (s : St Sim) (h : s.app = boot true) : run turnLang Sandbox.TimeGenerator.turn [.sym "self"] s = (.ok (.v .none), s) :=
  C94_quiet s (by rw [h]; intro _; rfl)

example (s : St Sim) (h : s.app = { boot true with acting := some 0, homes := [("origin", 1), ("jail", 0)] }) :
    run turnLang Sandbox.TimeGenerator.turn [.sym "self"] s = (.err .existingInteraction, s) :=
  C94_running s "origin" 1 [("jail", 0)] (by rw [h]; rfl) (by rw [h]; simp) (by rw [h]) (by rw [h]; decide)

/-- A greek who goes to jail after a turn, and whom nobody frees. -/
example (s : St Sim) (h : s.app = { bootStart with homes := [] }) (l' : List Happening) (hl : travelsOf l' = [.send 3 3 ⟨2, true⟩, .send 4 3 ⟨1, true⟩]) :
    Lives (srcHistory ([.turn, .move (.send 3 3 ⟨0, true⟩)] ++ l')
      (wiredAfter (fun i => madeBoxes.idxOf i) (fun i => (madeAgents.map Prod.fst).idxOf i) s)).app 3 0 := by
  have h0 : (wiredAfter (fun i => madeBoxes.idxOf i) (fun i => (madeAgents.map Prod.fst).idxOf i) s).app = boot true := by
    unfold wiredAfter
    rw [C93_start _ _ (by decide) (by decide) s (fun _ _ => by rw [h]; rfl) (fun _ _ => by rw [h]; rfl) (by rw [h]) (by rw [h]; rfl) (by rw [h]; rfl)]
    rfl
  refine (C94_closed _ _ (by decide) (by decide) s (fun _ _ => by rw [h]; rfl) (fun _ _ => by rw [h]; rfl) (by rw [h]) (by rw [h]; rfl) (by rw [h]; rfl)
    [.turn, .move (.send 3 3 ⟨0, true⟩)] l' 3 (by decide) ?_).2 ?_
  · rw [h0, show travelsOf ([.turn, .move (.send 3 3 ⟨0, true⟩)] ++ l') = .send 3 3 ⟨0, true⟩ :: travelsOf l' from rfl, hl]
    intro c d hx
    simp only [List.mem_cons, Travel.send.injEq, List.not_mem_nil, or_false] at hx
    rcases hx with ⟨rfl, _, rfl⟩ | ⟨rfl, _, rfl⟩ | ⟨rfl, _, rfl⟩ <;> exact ⟨by decide +kernel, rfl⟩
  · rw [C94_history _ _ (by rw [h0]; intro _; rfl), h0]
    exact ⟨_, rfl, rfl⟩

end ZS.Props
