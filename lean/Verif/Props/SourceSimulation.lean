import Verif.Model.PySimulation
import Verif.Props.Simulation
import Verif.Props.SourceSandbox

/-!
# C92: the source of examples/sandbox.py, and of the functions `wire_security` puts there
-/

namespace ZS.Props
open ZS ZS.PyC ZS.Src ZS.Spec
variable {β : Type}
set_option maxHeartbeats 1000000

section
theorem sm0_glob : simLang0.glob = smGlob := (rfl)
theorem sm0_getattr : simLang0.getattr = smGetattr := (rfl)
theorem sm0_setattr : simLang0.setattr = smSetattr := (rfl)
theorem sm0_method : simLang0.method = smMethod0 := (rfl)
theorem sm1_glob : simLang1.glob = smGlob := (rfl)
theorem sm1_getattr : simLang1.getattr = smGetattr := (rfl)
theorem sm1_setitem : simLang1.setitem = smSetitem := (rfl)
theorem sm1_method : simLang1.method = smMethod1 := (rfl)
theorem sm1_call : simLang1.call = smCall := (rfl)
theorem sm1_compare : simLang1.compare = smCompare := (rfl)
theorem sm1_truth : simLang1.truth = simLang0.sbTruth' := (rfl)
theorem sm1_bin : simLang1.bin = fun _ _ _ => pure (textV "") := (rfl)
theorem sm1_raising (x : PV) : raising simLang1 x = (ltoExn x).getD .typeError := by
  unfold raising; rw [show simLang1.toExn = ltoExn from rfl]; cases ltoExn x <;> rfl
theorem sm2_glob : simLang2.glob = smGlob := (rfl)
theorem sm2_getattr : simLang2.getattr = smGetattr := (rfl)
theorem sm2_delitem : simLang2.delitem = smDelitem := (rfl)
theorem sm2_method : simLang2.method = smMethod2 := (rfl)
theorem sm2_call : simLang2.call = smCall := (rfl)
theorem sm2_same : simLang2.same = smSame := (rfl)
theorem sm2_compare : simLang2.compare = smCompare := (rfl)
theorem sm2_truth : simLang2.truth = simLang0.sbTruth' := (rfl)
theorem sm2_raising (x : PV) : raising simLang2 x = (ltoExn x).getD .typeError := by
  unfold raising; rw [show simLang2.toExn = ltoExn from rfl]; cases ltoExn x <;> rfl
theorem sm3_glob : simLang3.glob = smGlob := (rfl)
theorem sm3_method : simLang3.method = smMethod3 := (rfl)
theorem sm4_method : simLang4.method = smMethod4 := (rfl)

theorem smt_bool (b : Bool) : simLang0.sbTruth' (.v (.bool b)) = pure b := (rfl)
theorem smg_IAgent : smGlob "IAgent" = pure (.sym "IAgent") := if_pos (by decide)
theorem smg_ISandbox : smGlob "ISandbox" = pure (.sym "ISandbox") := if_pos (by decide)
theorem smg_SandboxError : smGlob "SandboxError" = pure (.sym "SandboxError") := if_pos (by decide)
theorem smg_sandbox : smGlob "sandbox" = pure (.sym "sandbox") := if_pos (by decide)
theorem smg_checker : smGlob "checker" = pure (.sym "checker") := if_pos (by decide)
theorem smg_management : smGlob "management" = pure (.sym "management") := if_pos (by decide)
theorem smg_AgentParticipation : smGlob "AgentParticipation" = pure (.sym "AgentParticipation") := if_pos (by decide)
theorem smg_time : smGlob "time" = pure (.sym "time") := if_pos (by decide)
theorem smg_homes : smGlob "_homes" = pure (.sym "_homes") := if_pos (by decide)
theorem smg_random : smGlob "import random" = pure (.sym "random") := (if_neg (by decide)).trans (if_pos rfl)
end

section
variable (k : PV → St Sim → Res β × St Sim) (u : Unit → St Sim → Res β × St Sim) (h : Exn → St Sim → Res β × St Sim) (s : St Sim) (a b : Nat) (p : Bool)
theorem fs_id : fork (smGetattr (.part a) "id") k h s = k (textV (s.app.agents a).id) s := (rfl)
theorem fs_home : fork (smGetattr (.part a) "home") k h s = k (homeV (s.app.agents a).home) s := (rfl)
theorem fs_auth : fork (smGetattr (.part a) "auth_token") k h s = k (textV (s.app.agents a).token) s := (rfl)
theorem fs_boxid : fork (smGetattr (.slice (.v (.obj b)) (.v (.bool false))) "id") k h s = k (textV (s.app.boxes b).id) s := (rfl)
theorem sg_agents : smGetattr (.slice (.v (.obj b)) (.v (.bool false))) "_agents" = pure (bookV b "_agents") := (rfl)
theorem sg_services : smGetattr (.slice (.v (.obj b)) (.v (.bool false))) "_services" = pure (bookV b "_services") := (rfl)
theorem sg_sandbox_homes : smGetattr (.sym "sandbox") "_homes" = pure (.sym "_homes") := by
  show (if "sandbox" = "sandbox" ∧ "_homes" ∈ ["_homes", "IAgent"] then (pure (.sym "_homes") : M Sim PV) else stuck) = _
  exact if_pos (by decide)
theorem sg_sandbox_IAgent : smGetattr (.sym "sandbox") "IAgent" = pure (.sym "IAgent") := by
  show (if "sandbox" = "sandbox" ∧ "IAgent" ∈ ["_homes", "IAgent"] then (pure (.sym "IAgent") : M Sim PV) else stuck) = _
  exact if_pos (by decide)

/-- A box in the state changed. -/
def withBox (s : St Sim) (b : Nat) (d : PyDict String Nat) : St Sim :=
  { s with app := { s.app with boxes := fun k => if k = b then { s.app.boxes b with agents := d } else s.app.boxes k } }

/-- The home of an agent changed. -/
def withHome (s : St Sim) (a : Nat) (r : Ref) : St Sim :=
  { s with app := { s.app with agents := fun k => if k = a then { s.app.agents a with home := some r } else s.app.agents k } }

/-- Who acts changed. -/
def withActing (s : St Sim) (o : Option Nat) : St Sim := { s with app := { s.app with acting := o } }

theorem fs_setHome : fork (smSetattr (.part a) "home" (.slice (.v (.obj b)) (.v (.bool p)))) u h s = u () (withHome s a ⟨b, p⟩) := (rfl)
theorem fs_setitem (i : Nat) (n : String) : fork (smSetitem (bookV b "_agents") (.v (.str i n)) (.part a)) u h s
    = u () (withBox s b ((s.app.boxes b).agents.set n a)) := (rfl)
theorem fs_delitem (i : Nat) (n : String) : fork (smDelitem (bookV b "_agents") (.v (.str i n))) u h s
    = if (s.app.boxes b).agents.mem n then u () (withBox s b ((s.app.boxes b).agents.del n)) else h .keyError s := by
  rw [show smDelitem (bookV b "_agents") (.v (.str i n)) = (do
      let s ← M.get
      if (s.app.boxes b).agents.mem n then
        M.modify fun s => { s with app := { s.app with
          boxes := fun k => if k = b then { s.app.boxes b with agents := (s.app.boxes b).agents.del n } else s.app.boxes k } }
      else M.throw .keyError) from rfl]
  rw [fork_bind, fork_get, fork_ite]
  rfl
theorem fs_in (i : Nat) (n : String) : fork (smCompare .isIn (.v (.str i n)) (bookV b "_agents")) k h s
    = k (.v (.bool ((s.app.boxes b).agents.mem n))) s := (rfl)
theorem fs_notIn (i : Nat) (n : String) : fork (smCompare .notIn (.v (.str i n)) (bookV b "_agents")) k h s
    = k (.v (.bool (!(s.app.boxes b).agents.mem n))) s := (rfl)
theorem sm_error (l : List PV) (kw : List (Name × PV)) : smCall (.sym "SandboxError") l kw = pure (.exn (simExn .sandbox)) := (rfl)
theorem sm_participation (kw : List (Name × PV)) : smCall (.sym "AgentParticipation") [.part a] kw = pure (.bound (.part a) "participation") := (rfl)
theorem s1_IAgent (kw : List (Name × PV)) : smMethod1 (.sym "IAgent") "providedBy" [.part a] kw = pure (.v (.bool true)) := (rfl)
theorem s1_error (l : List PV) (kw : List (Name × PV)) : smMethod1 (.sym "sandbox") "SandboxError" l kw = pure (.exn (simExn .sandbox)) := (rfl)
theorem f1_select (kw : List (Name × PV)) : fork (smMethod1 (.sym "checker") "selectChecker" [.slice (.v (.obj b)) (.v (.bool false))] kw) k h s
    = k (if s.app.secured then .sup (boxV ⟨b, false⟩) else .v .none) s := (rfl)
theorem s1_proxy (x : PV) (kw : List (Name × PV)) : smMethod1 (.sup x) "proxy" [.slice (.v (.obj b)) (.v (.bool false))] kw = pure (boxV ⟨b, true⟩) := (rfl)

theorem f1_getId : fork (smMethod1 (.part a) "getId" [] []) k h s = k (textV (s.app.agents a).id) s := by
  have : run simLang0 Sandbox.Identity.getId [agentV a] s = (.ok (textV (s.app.agents a).id), s) := by
    refine fork_run ?_
    pysteps [Sandbox.Identity.getId, sm0_getattr, fs_id]
    rfl
  unfold fork
  rw [show smMethod1 (.part a) "getId" [] [] = run simLang0 Sandbox.Identity.getId [agentV a] from rfl, this]
theorem f1_getHome : fork (smMethod1 (.part a) "getHome" [] []) k h s = k (homeV (s.app.agents a).home) s := by
  have : run simLang0 Sandbox.Agent.getHome [agentV a] s = (.ok (homeV (s.app.agents a).home), s) := by
    refine fork_run ?_
    pysteps [Sandbox.Agent.getHome, sm0_getattr, fs_home]
    rfl
  unfold fork
  rw [show smMethod1 (.part a) "getHome" [] [] = run simLang0 Sandbox.Agent.getHome [agentV a] from rfl, this]
theorem f1_setHome : fork (smMethod1 (.part a) "setHome" [.slice (.v (.obj b)) (.v (.bool p))] []) k h s = k (.v .none) (withHome s a ⟨b, p⟩) := by
  have : run simLang0 Sandbox.Agent.setHome [agentV a, boxV ⟨b, p⟩] s = (.ok (.v .none), withHome s a ⟨b, p⟩) := by
    refine fork_run ?_
    pysteps [Sandbox.Agent.setHome, sm0_setattr, fs_setHome]
    rfl
  unfold fork
  rw [show smMethod1 (.part a) "setHome" [.slice (.v (.obj b)) (.v (.bool p))] [] = run simLang0 Sandbox.Agent.setHome [agentV a, boxV ⟨b, p⟩] from rfl, this]
end

/-- `pysteps` for `simLang1`. -/
syntax "smsteps" ("[" Lean.Parser.Tactic.simpLemma,* "]")? : tactic
macro_rules
  | `(tactic| smsteps) => `(tactic| smsteps [])
  | `(tactic| smsteps [$ts,*]) => `(tactic|
    pysteps [sm1_glob, sm1_getattr, sm1_setitem, sm1_method, sm1_call, sm1_compare, sm1_truth, sm1_bin, sm1_raising,
      sm2_glob, sm2_getattr, sm2_delitem, sm2_method, sm2_call, sm2_same, sm2_compare, sm2_truth, sm2_raising, sm3_glob, sm3_method, sm4_method, smt_bool,
      smg_IAgent, smg_ISandbox, smg_SandboxError, smg_sandbox, smg_checker, smg_management, smg_AgentParticipation, smg_time, smg_homes, smg_random,
      fs_boxid, sg_agents, sg_services, sg_sandbox_homes, sg_sandbox_IAgent, fs_setitem, fs_in, fs_notIn, sm_error, sm_participation,
      s1_IAgent, s1_error, f1_select, s1_proxy, f1_getId, f1_getHome, f1_setHome, boxV, agentV, bookV, textV, serviceV, viewV, $ts,*])

/-! ## Programs of the simulation in the interpreter -/

theorem liftSm_bind {α γ δ : Type} (x : Sm α) (g : α → Sm γ) (f : γ → δ) :
    liftSm (x >>= g) f = (liftSm x id >>= fun a => liftSm (g a) f) := by
  funext s
  show liftSm (Sm.bind x g) f s = M.bind (liftSm x id) (fun a => liftSm (g a) f) s
  unfold liftSm M.bind Sm.bind
  beta_reduce
  rcases x s.app with ⟨_ | _, _⟩ <;> rfl

theorem through_guard {α : Type} (r : Ref) (n : Name) (body : Sm α) : through r n body = (through r n (pure ()) >>= fun _ => body) := by
  funext s
  rcases r with ⟨b, p⟩
  cases p
  · rfl
  · show Sm.bind (decideSim sandboxSecurity (s.boxes b).id n) (fun _ => body) s
      = Sm.bind (Sm.bind (decideSim sandboxSecurity (s.boxes b).id n) fun _ => pure ()) (fun _ => body) s
    unfold Sm.bind
    rcases decideSim sandboxSecurity (s.boxes b).id n s with ⟨_ | _, _⟩ <;> rfl

theorem lift_through {α δ : Type} (b : Nat) (p : Bool) (n : Name) (body : Sm α) (f : α → δ) :
    liftSm (through ⟨b, p⟩ n body) f = (guardBox b p n >>= fun _ => liftSm body f) := by
  rw [through_guard, liftSm_bind]; rfl

theorem lift_add {δ : Type} (b a : Nat) (f : Unit → δ) (s : St Sim) : liftSm (addAgent b a) f s
    = if (s.app.boxes b).agents.mem (s.app.agents a).id then (.err (simExn .sandbox), s)
      else (.ok (f ()), withHome (withBox s b ((s.app.boxes b).agents.set (s.app.agents a).id a)) a ⟨b, s.app.secured⟩) := by
  have : addAgent b a s.app = if (s.app.boxes b).agents.mem (s.app.agents a).id then (.error .sandbox, s.app)
      else (.ok (), (withHome (withBox s b ((s.app.boxes b).agents.set (s.app.agents a).id a)) a ⟨b, s.app.secured⟩).app) := by
    show (if (s.app.boxes b).agents.mem (s.app.agents a).id then _ else _ : Sm Unit) s.app = _
    split <;> rfl
  unfold liftSm
  rw [this]
  by_cases hm : (s.app.boxes b).agents.mem (s.app.agents a).id = true
  · rw [if_pos hm, if_pos hm]
  · rw [if_neg hm, if_neg hm]; rfl

theorem liftSm_congr {α δ : Type} {x y : Sm α} {s : St Sim} (h : x s.app = y s.app) (f : α → δ) : liftSm x f s = liftSm y f s := by
  unfold liftSm; rw [h]

theorem wb_secured (s : St Sim) (b : Nat) (d : PyDict String Nat) : (withBox s b d).app.secured = s.app.secured := rfl
theorem wb_agents (s : St Sim) (b : Nat) (d : PyDict String Nat) : (withBox s b d).app.agents = s.app.agents := rfl

/-! ## Adding agents -/

/-- **C92** `Sandbox.addAgent` (examples/sandbox.py:144-150) before `wire_security`, and the function put in its place
(examples/sandbox_security.py:169-177) after. -/
theorem C92_addAgent (a b : Nat) (s : St Sim) :
    (s.app.secured = false → run simLang1 Sandbox.Sandbox.addAgent [boxV ⟨b, false⟩, agentV a] s = liftSm (addAgent b a) (fun _ => .v .none) s)
    ∧ (s.app.secured = true → run simLang1 SandboxSecurity.wire_security.addAgent [boxV ⟨b, false⟩, agentV a] s
        = liftSm (addAgent b a) (fun _ => .v .none) s) := by
  rw [lift_add]
  constructor
  · intro hs
    refine fork_run ?_
    cases hm : (s.app.boxes b).agents.mem (s.app.agents a).id with
    | true =>
      smsteps [Sandbox.Sandbox.addAgent, hm]
      rfl
    | false =>
      smsteps [Sandbox.Sandbox.addAgent, hm, hs]
      rfl
  · intro hs
    refine fork_run ?_
    cases hm : (s.app.boxes b).agents.mem (s.app.agents a).id with
    | true =>
      smsteps [SandboxSecurity.wire_security.addAgent, hm]
      rfl
    | false =>
      smsteps [SandboxSecurity.wire_security.addAgent, hm, wb_secured, hs, if_true]
      rfl

/-- The method, asked for through a reference. -/
theorem C92_add (a b : Nat) (p : Bool) : smMethod2 (boxV ⟨b, p⟩) "addAgent" [agentV a] []
    = liftSm (through ⟨b, p⟩ "addAgent" (addAgent b a)) (fun _ => .v .none) := by
  rw [lift_through]
  show (guardBox b p "addAgent" >>= fun _ => (M.get >>= fun s => if s.app.secured
      then run simLang1 SandboxSecurity.wire_security.addAgent [boxV ⟨b, false⟩, agentV a]
      else run simLang1 Sandbox.Sandbox.addAgent [boxV ⟨b, false⟩, agentV a])) = _
  congr 1
  funext _ s
  show (if s.app.secured then _ else _ : M Sim PV) s = _
  cases hs : s.app.secured
  · exact (C92_addAgent a b s).1 hs
  · exact (C92_addAgent a b s).2 hs

/-! ## Moving agents -/

section
variable (k : PV → St Sim → Res β × St Sim) (h : Exn → St Sim → Res β × St Sim) (s : St Sim) (a b : Nat) (p : Bool)
theorem f2_getId : fork (smMethod2 (.part a) "getId" [] []) k h s = k (textV (s.app.agents a).id) s := f1_getId k h s a
theorem f2_getHome : fork (smMethod2 (.part a) "getHome" [] []) k h s = k (homeV (s.app.agents a).home) s := f1_getHome k h s a
theorem s2_ISandbox (x y : PV) (kw : List (Name × PV)) : smMethod2 (.sym "ISandbox") "providedBy" [.slice x y] kw = pure (.v (.bool true)) := (rfl)
theorem s2_format (i : Nat) (n : String) (l : List PV) (kw : List (Name × PV)) : smMethod2 (.v (.str i n)) "format" l kw = pure (textV "") := (rfl)
theorem s2_same (c : Nat) (q : Bool) : smSame (.slice (.v (.obj b)) (.v (.bool p))) (.slice (.v (.obj c)) (.v (.bool q))) = decide (b = c ∧ p = q) := rfl
theorem s2_add : smMethod2 (.slice (.v (.obj b)) (.v (.bool p))) "addAgent" [.part a] []
    = liftSm (through ⟨b, p⟩ "addAgent" (addAgent b a)) (fun _ => .v .none) := C92_add a b p
end

/-- What `through … addAgent` does. -/
theorem lift_through_add (b : Nat) (p : Bool) (a : Nat) (s : St Sim) :
    (∃ e, ∀ {δ : Type} (f : Unit → δ), liftSm (through ⟨b, p⟩ "addAgent" (addAgent b a)) f s = (.err e, s))
    ∨ ((s.app.boxes b).agents.mem (s.app.agents a).id = false
      ∧ ∀ {δ : Type} (f : Unit → δ), liftSm (through ⟨b, p⟩ "addAgent" (addAgent b a)) f s
        = (.ok (f ()), withHome (withBox s b ((s.app.boxes b).agents.set (s.app.agents a).id a)) a ⟨b, s.app.secured⟩)) := by
  have hg : guardBox b p "addAgent" s = (.ok (), s) ∨ ∃ e, guardBox b p "addAgent" s = (.err e, s) := by
    cases p
    · exact .inl rfl
    · have hd := decideSim_state sandboxSecurity (s.app.boxes b).id "addAgent" s.app
      show (liftSm (Sm.bind (decideSim sandboxSecurity (s.app.boxes b).id "addAgent") fun _ => pure ()) id s = _) ∨ ∃ e,
        liftSm (Sm.bind (decideSim sandboxSecurity (s.app.boxes b).id "addAgent") fun _ => pure ()) id s = _
      unfold liftSm Sm.bind
      revert hd
      rcases decideSim sandboxSecurity (s.app.boxes b).id "addAgent" s.app with ⟨e | u, t⟩
      · rintro rfl; exact .inr ⟨_, rfl⟩
      · rintro rfl; exact .inl rfl
  rcases hg with hg | ⟨e, hg⟩
  · have step : ∀ {δ : Type} (f : Unit → δ), liftSm (through ⟨b, p⟩ "addAgent" (addAgent b a)) f s = liftSm (addAgent b a) f s := by
      intro δ f
      rw [lift_through]
      show M.bind (guardBox b p "addAgent") _ s = _
      unfold M.bind; rw [hg]
    cases hm : (s.app.boxes b).agents.mem (s.app.agents a).id with
    | true => exact .inl ⟨simExn .sandbox, fun f => by rw [step, lift_add, hm]; rfl⟩
    | false => exact .inr ⟨rfl, fun f => by rw [step, lift_add, hm]; rfl⟩
  · refine .inl ⟨e, fun f => ?_⟩
    rw [lift_through]
    show M.bind (guardBox b p "addAgent") _ s = _
    unfold M.bind; rw [hg]

/-- **C92** `Sandbox.transportAgent` (examples/sandbox.py:161-170). -/
theorem C92_transport (a b : Nat) (d : Ref) : run simLang2 Sandbox.Sandbox.transportAgent [boxV ⟨b, false⟩, agentV a, boxV d]
    = liftSm (transportAgent b a d) (fun _ => .v .none) := by
  funext s
  rcases d with ⟨d, p⟩
  refine fork_run ?_
  have spec : liftSm (transportAgent b a ⟨d, p⟩) (fun _ => PV.v .none) s
      = if (s.app.boxes b).agents.mem (s.app.agents a).id ∧ (⟨d, p⟩ : Ref) ≠ ⟨b, false⟩ then
          M.bind (liftSm (through ⟨d, p⟩ "addAgent" (addAgent d a)) id)
            (fun _ s' => (.ok (PV.v .none), withBox s' b ((s'.app.boxes b).agents.del (s.app.agents a).id))) s
        else (.err (simExn .sandbox), s) := by
    have h0 : transportAgent b a ⟨d, p⟩ s.app = (if (s.app.boxes b).agents.mem (s.app.agents a).id ∧ (⟨d, p⟩ : Ref) ≠ ⟨b, false⟩ then
          (through ⟨d, p⟩ "addAgent" (addAgent d a) >>= fun _ => Sm.change fun t => { t with boxes := fun k =>
            if k = b then { t.boxes b with agents := (t.boxes b).agents.del (s.app.agents a).id } else t.boxes k })
        else Sm.raise .sandbox) s.app := rfl
    rw [liftSm_congr h0]
    by_cases hc : (s.app.boxes b).agents.mem (s.app.agents a).id ∧ (⟨d, p⟩ : Ref) ≠ ⟨b, false⟩
    · rw [if_pos hc, if_pos hc, liftSm_bind]
      rfl
    · rw [if_neg hc, if_neg hc]
      rfl
  rw [spec]
  cases hm : (s.app.boxes b).agents.mem (s.app.agents a).id with
  | false =>
    rw [if_neg (by simp)]
    smsteps [Sandbox.Sandbox.transportAgent, hm, f2_getId, s2_format]
    rfl
  | true =>
    by_cases hd : d = b ∧ p = false
    · rw [if_neg (by rw [hd.1, hd.2]; simp)]
      have hsame : smSame (.slice (.v (.obj d)) (.v (.bool p))) (.slice (.v (.obj b)) (.v (.bool false))) = true := by
        rw [s2_same]; exact decide_eq_true hd
      smsteps [Sandbox.Sandbox.transportAgent, hm, f2_getId, s2_format, hsame]
      rfl
    · rw [if_pos ⟨rfl, by intro h; injection h with h1 h2; exact hd ⟨h1, h2⟩⟩]
      have hsame : smSame (.slice (.v (.obj d)) (.v (.bool p))) (.slice (.v (.obj b)) (.v (.bool false))) = false := by
        rw [s2_same]; exact decide_eq_false hd
      rcases lift_through_add d p a s with ⟨e, he⟩ | ⟨hn, ho⟩
      · have hf : ∀ (k : PV → St Sim → Res PV × St Sim) h, fork (liftSm (through ⟨d, p⟩ "addAgent" (addAgent d a)) fun _ => PV.v .none) k h s = h e s := by
          intro k h; unfold fork; rw [he]
        smsteps [Sandbox.Sandbox.transportAgent, hm, f2_getId, s2_format, hsame, s2_ISandbox, s2_add, hf]
        unfold M.bind
        rw [he]
        rfl
      · have hdb : d ≠ b := by rintro rfl; rw [hm] at hn; exact absurd hn (by simp)
        have hf : ∀ (k : PV → St Sim → Res PV × St Sim) h, fork (liftSm (through ⟨d, p⟩ "addAgent" (addAgent d a)) fun _ => PV.v .none) k h s
            = k (.v .none) (withHome (withBox s d ((s.app.boxes d).agents.set (s.app.agents a).id a)) a ⟨d, s.app.secured⟩) := by
          intro k h; unfold fork; rw [ho]
        have hid : ((withHome (withBox s d ((s.app.boxes d).agents.set (s.app.agents a).id a)) a ⟨d, s.app.secured⟩).app.agents a).id
            = (s.app.agents a).id := by
          show (if a = a then _ else _ : Agent).id = _
          rw [if_pos rfl]; rfl
        have hbox : (withHome (withBox s d ((s.app.boxes d).agents.set (s.app.agents a).id a)) a ⟨d, s.app.secured⟩).app.boxes b
            = s.app.boxes b := if_neg (Ne.symm hdb)
        smsteps [Sandbox.Sandbox.transportAgent, hm, f2_getId, s2_format, hsame, s2_ISandbox, s2_add, hf, fs_delitem, hid, hbox]
        unfold M.bind
        rw [ho]
        dsimp only
        rw [hbox]
        rfl

/-- **C92** `c.getHome().transportAgent(a, d)` (examples/sandbox.py:272, 274). -/
theorem C92_send (c a : Nat) (d : Ref) : (do let home ← smMethod3 (agentV c) "getHome" [] []; smMethod3 home "transportAgent" [agentV a, boxV d] [])
    = liftSm (sendFrom c a d) (fun _ => .v .none) := by
  apply ext_fork
  intro s
  rw [fork_bind]
  show fork (smMethod1 (.part c) "getHome" [] []) _ errK s = _
  rw [f1_getHome]
  cases hh : (s.app.agents c).home with
  | none =>
    have h0 : sendFrom c a d s.app = (.error (.attribute "transportAgent"), s.app) := by
      show (match (s.app.agents c).home with | none => _ | some r => _ : Sm Unit) s.app = _
      rw [hh]; rfl
    have h1 : liftSm (sendFrom c a d) (fun _ => PV.v .none) s = (.err (.attributeError "transportAgent"), s) := by
      unfold liftSm; rw [h0]; rfl
    unfold fork
    rw [h1]
    rfl
  | some r =>
    have h0 : sendFrom c a d s.app = through r "transportAgent" (transportAgent r.box a d) s.app := by
      show (match (s.app.agents c).home with | none => _ | some r => _ : Sm Unit) s.app = _
      rw [hh]
    have h1 := liftSm_congr h0 (fun _ => PV.v .none)
    have h2 : smMethod3 (homeV (some r)) "transportAgent" [agentV a, boxV d] []
        = liftSm (through ⟨r.box, r.proxied⟩ "transportAgent" (transportAgent r.box a d)) (fun _ => PV.v .none) := by
      rw [lift_through]
      show (guardBox r.box r.proxied "transportAgent" >>= fun _ =>
        run simLang2 Sandbox.Sandbox.transportAgent [boxV ⟨r.box, false⟩, agentV a, boxV d]) = _
      rw [C92_transport]
    rw [h2]
    unfold fork
    rw [h1]

/-! ## Actions -/

section
variable (k : PV → St Sim → Res β × St Sim) (h : Exn → St Sim → Res β × St Sim) (s : St Sim) (a b : Nat) (p : Bool)
theorem s1_get (i : Nat) (n : String) (kw : List (Name × PV)) : fork (smMethod1 (bookV b "_services") "get" [.v (.str i n)] kw) k h s
    = k (if n ∈ (s.app.boxes b).services then serviceV ⟨b, false⟩ n else .v .none) s := (rfl)
theorem s1_values (kw : List (Name × PV)) : fork (smMethod1 (bookV b "_agents") "values" [] kw) k h s
    = k (viewV ((s.app.boxes b).agents.map fun p => agentV p.2)) s := (rfl)
theorem f2_keys (kw : List (Name × PV)) : fork (smMethod2 (.sym "_homes") "keys" [] kw) k h s
    = k (viewV (s.app.homes.keys.map textV)) s := (rfl)
theorem f2_time (kw : List (Name × PV)) : smMethod2 (.sym "time") "time" [] kw = pure (.sym "now") := (rfl)
end

/-- `Sandbox.getService` (examples/sandbox.py:138-139). -/
theorem run_getService (b : Nat) (n : String) (s : St Sim) : run simLang1 Sandbox.Sandbox.getService [boxV ⟨b, false⟩, textV n] s
    = (.ok (if n ∈ (s.app.boxes b).services then serviceV ⟨b, false⟩ n else .v .none), s) := by
  refine fork_run ?_
  smsteps [Sandbox.Sandbox.getService, s1_get]
  rfl

/-- `Sandbox.getAgents` (examples/sandbox.py:132-133). -/
theorem run_getAgents (b : Nat) (s : St Sim) : run simLang1 Sandbox.Sandbox.getAgents [boxV ⟨b, false⟩] s
    = (.ok (viewV ((s.app.boxes b).agents.map fun p => agentV p.2)), s) := by
  refine fork_run ?_
  smsteps [Sandbox.Sandbox.getAgents, s1_values]
  rfl

theorem run_homes (x : PV) (s : St Sim) : run simLang2 Sandbox.HomeDiscoveryService.getAvailableHomes [x] s
    = (.ok (viewV (s.app.homes.keys.map textV)), s) := by
  refine fork_run ?_
  smsteps [Sandbox.HomeDiscoveryService.getAvailableHomes, f2_keys]
  rfl

theorem run_time (x : PV) (s : St Sim) : run simLang2 Sandbox.TimeService.getTime [x] s = (.ok (.sym "now"), s) := by
  refine fork_run ?_
  smsteps [Sandbox.TimeService.getTime, f2_time]
  rfl

/-- `home.getAgents()`, asked for through a reference. -/
theorem call_getAgents (b : Nat) (p : Bool) : smMethod2 (boxV ⟨b, p⟩) "getAgents" [] []
    = liftSm (through ⟨b, p⟩ "getAgents" (Sm.read fun s => Answer.agents ((s.boxes b).agents.map Prod.snd))) answerV := by
  rw [lift_through]
  show (guardBox b p "getAgents" >>= fun _ => run simLang1 Sandbox.Sandbox.getAgents [boxV ⟨b, false⟩]) = _
  congr 1
  funext _ s
  rw [run_getAgents]
  show _ = (Res.ok (viewV (((s.app.boxes b).agents.map Prod.snd).map agentV)), s)
  rw [List.map_map]
  rfl

theorem fork_same {α : Type} {x : M Sim α} {k k' : α → St Sim → Res β × St Sim} {h h' : Exn → St Sim → Res β × St Sim} {s : St Sim}
    (hk : ∀ a t, k a t = k' a t) (hh : ∀ e t, h e t = h' e t) : fork x k h s = fork x k' h' s := by
  rw [show k = k' from funext fun a => funext (hk a), show h = h' from funext fun e => funext (hh e)]

theorem run_neighbors (x : PV) (b : Nat) (p : Bool) : run simLang2 Sandbox.AgentDiscoveryService.getLocalAgents [x, boxV ⟨b, p⟩]
    = liftSm (through ⟨b, p⟩ "getAgents" (Sm.read fun s => Answer.agents ((s.boxes b).agents.map Prod.snd))) answerV := by
  rw [← call_getAgents]
  apply ext_fork
  intro s
  smsteps [Sandbox.AgentDiscoveryService.getLocalAgents]
  exact fork_same (fun _ _ => by smsteps) (fun _ _ => by smsteps)

theorem fork_lift {α : Type} (x : Sm α) (f : α → PV) (k : PV → St Sim → Res β × St Sim) (h : Exn → St Sim → Res β × St Sim) (s : St Sim) :
    fork (liftSm x f) k h s = fork (liftSm x id) (fun a => k (f a)) h s := by
  unfold fork liftSm
  rcases x s.app with ⟨_ | _, _⟩ <;> rfl

/-- `home.getService(sid)`, asked for through a reference. -/
theorem call_getService (b : Nat) (p : Bool) (sid : String) : smMethod3 (boxV ⟨b, p⟩) "getService" [textV sid] []
    = liftSm (through ⟨b, p⟩ "getService" (Sm.read fun s => decide (sid ∈ (s.boxes b).services)))
        (fun found => if found then serviceV ⟨b, p⟩ sid else .v .none) := by
  rw [lift_through]
  show (guardBox b p "getService" >>= fun _ => (run simLang1 Sandbox.Sandbox.getService [boxV ⟨b, false⟩, textV sid] >>= fun x => pure (wrapped p x))) = _
  congr 1
  funext _ s
  show M.bind _ _ s = _
  unfold M.bind
  rw [run_getService]
  show (Res.ok (wrapped p (if sid ∈ (s.app.boxes b).services then serviceV ⟨b, false⟩ sid else .v .none)), s)
    = (Res.ok (if decide (sid ∈ (s.app.boxes b).services) = true then serviceV ⟨b, p⟩ sid else .v .none), s)
  by_cases hm : sid ∈ (s.app.boxes b).services
  · rw [if_pos hm, if_pos (decide_eq_true hm)]
    cases p <;> rfl
  · rw [if_neg hm, if_neg (by simpa using hm)]
    rfl

/-- A method of a service, got through a reference. -/
theorem on_service (b : Nat) (p : Bool) (sid : String) (n : Name) (args : List PV) (body : Sm Answer)
    (hb : smMethod3 (serviceV ⟨b, p⟩ sid) n args [] = (guardService b p sid n >>= fun _ => liftSm body answerV)) :
    (do let x ← smMethod3 (boxV ⟨b, p⟩) "getService" [textV sid] []; smMethod3 x n args []) = liftSm (onService ⟨b, p⟩ sid n body) answerV := by
  rw [call_getService]
  unfold onService
  rw [liftSm_bind]
  apply ext_fork
  intro s
  rw [fork_bind, fork_bind, fork_lift]
  congr 1
  funext found t
  cases found
  · rfl
  · show fork (smMethod3 (serviceV ⟨b, p⟩ sid) n args []) okK errK t = fork (liftSm (do
      if p then
        let id ← Sm.read fun s => (s.boxes b).id
        decideSim (serviceSecurity sid) id n
      body) answerV) okK errK t
    rw [hb]
    congr 1
    unfold guardService
    rw [← liftSm_bind]
    cases p <;> rfl

/-- **C92** The actions (examples/sandbox.py:219-231) with the services (examples/sandbox.py:185-209). -/
theorem C92_actions (d : Deed) (a : Nat) (r : Ref) : run simLang3 (deedFn d) [agentV a, boxV r] = liftSm (deedOf d r) answerV := by
  rcases r with ⟨b, p⟩
  cases d with
  | findTime =>
    refine Eq.trans ?_ (on_service b p "TimeService" "getTime" [] (Sm.read fun _ => .time) ?_)
    · apply ext_fork
      intro s
      smsteps [deedFn, Sandbox.action_find_time]
      refine fork_same (fun _ _ => ?_) (fun _ _ => by smsteps)
      smsteps
      exact fork_same (fun _ _ => by smsteps) (fun _ _ => by smsteps)
    · show (guardService b p "TimeService" "getTime" >>= fun _ => run simLang2 Sandbox.TimeService.getTime [serviceV ⟨b, false⟩ "TimeService"]) = _
      exact congrArg (guardService b p _ _ >>= ·) (funext fun _ => funext fun s => by rw [run_time]; rfl)
  | findNeighbors =>
    refine Eq.trans ?_ (on_service b p "AgentDiscoveryService" "getLocalAgents" [boxV ⟨b, p⟩]
      (through ⟨b, p⟩ "getAgents" (Sm.read fun s => .agents ((s.boxes b).agents.map Prod.snd))) ?_)
    · apply ext_fork
      intro s
      smsteps [deedFn, Sandbox.action_find_neighbors]
      refine fork_same (fun _ _ => ?_) (fun _ _ => by smsteps)
      smsteps
      exact fork_same (fun _ _ => by smsteps) (fun _ _ => by smsteps)
    · show (guardService b p "AgentDiscoveryService" "getLocalAgents" >>= fun _ =>
        run simLang2 Sandbox.AgentDiscoveryService.getLocalAgents [serviceV ⟨b, false⟩ "AgentDiscoveryService", boxV ⟨b, p⟩]) = _
      rw [run_neighbors]
  | findHomes =>
    refine Eq.trans ?_ (on_service b p "HomeDiscoveryService" "getAvailableHomes" [] (Sm.read fun s => .ids s.homes.keys) ?_)
    · apply ext_fork
      intro s
      smsteps [deedFn, Sandbox.action_find_homes]
      refine fork_same (fun _ _ => ?_) (fun _ _ => by smsteps)
      smsteps
      exact fork_same (fun _ _ => by smsteps) (fun _ _ => by smsteps)
    · show (guardService b p "HomeDiscoveryService" "getAvailableHomes" >>= fun _ =>
        run simLang2 Sandbox.HomeDiscoveryService.getAvailableHomes [serviceV ⟨b, false⟩ "HomeDiscoveryService"]) = _
      exact congrArg (guardService b p _ _ >>= ·) (funext fun _ => funext fun s => by rw [run_homes]; rfl)

/-- An action, run. -/
def theDeed (d : Deed) (l : List PV) : M Sim PV := run simLang3 (deedFn d) l

section
variable (k : PV → St Sim → Res β × St Sim) (h : Exn → St Sim → Res β × St Sim) (s : St Sim) (a b : Nat) (p : Bool)
theorem f4_getHome : fork (smMethod4 (.part a) "getHome" [] []) k h s = k (homeV (s.app.agents a).home) s := f1_getHome k h s a
theorem f4_action (l : List PV) : fork (smMethod4 (.part a) "_action" l []) k h s = fork (theDeed (s.app.agents a).deed l) k h s := (rfl)
end

/-- An action with `None` for a home. -/
theorem run_homeless (d : Deed) (a : Nat) (s : St Sim) : run simLang3 (deedFn d) [agentV a, .v .none] s = (.err (.attributeError "getService"), s) := by
  refine fork_run ?_
  have h3 (l : List PV) : smMethod3 (.v .none) "getService" l [] = M.throw (.attributeError "getService") := rfl
  cases d
  · smsteps [deedFn, Sandbox.action_find_time, h3]
    rfl
  · smsteps [deedFn, Sandbox.action_find_neighbors, h3]
    rfl
  · smsteps [deedFn, Sandbox.action_find_homes, h3]
    rfl

/-- **C92** `Agent.action` (examples/sandbox.py:98-100). -/
theorem C92_act (a : Nat) : run simLang4 Sandbox.Agent.action [agentV a] = liftSm (act a) (fun _ => .v .none) := by
  apply ext_fork
  intro s
  smsteps [Sandbox.Agent.action, f4_getHome, f4_action]
  cases hh : (s.app.agents a).home with
  | none =>
    have h0 : act a s.app = (.error (.attribute "getService"), s.app) := by
      show (match (s.app.agents a).home with | none => _ | some r => _ : Sm Answer) s.app = _
      rw [hh]; rfl
    have h1 : liftSm (act a) (fun _ => PV.v .none) s = (.err (.attributeError "getService"), s) := by
      unfold liftSm; rw [h0]; rfl
    have h2 : ∀ (k : PV → St Sim → Res PV × St Sim) h,
        fork (theDeed (s.app.agents a).deed [agentV a, homeV none]) k h s = h (.attributeError "getService") s := by
      intro k h; unfold fork theDeed; rw [show homeV none = PV.v .none from rfl, run_homeless]
    rw [h2]
    smsteps
    unfold fork
    rw [h1]
  | some r =>
    have h0 : act a s.app = deedOf (s.app.agents a).deed r s.app := by
      show (match (s.app.agents a).home with | none => _ | some r => _ : Sm Answer) s.app = _
      rw [hh]
    have h1 : fork (liftSm (act a) (fun _ => PV.v .none)) okK errK s = fork (liftSm (deedOf (s.app.agents a).deed r) id) (fun _ => okK (PV.v .none)) errK s := by
      rw [← fork_lift]
      unfold fork
      rw [liftSm_congr h0]
    rw [h1, show homeV (some r) = boxV r from rfl, show theDeed (s.app.agents a).deed [.part a, boxV r] = _ from C92_actions _ a r, fork_lift]
    exact fork_same (fun _ _ => by smsteps) (fun _ _ => by smsteps)

/-! ## Turns -/

section
variable (k : PV → St Sim → Res β × St Sim) (h : Exn → St Sim → Res β × St Sim) (s : St Sim) (a b : Nat) (p : Bool)
theorem f3_new (x : Name) (kw : List (Name × PV)) : fork (smMethod3 (.sym "management") "newInteraction" [.bound (.part a) x] kw) k h s
    = if s.app.acting.isSome then h .existingInteraction s else k (.v .none) (withActing s (some a)) := by
  rw [show smMethod3 (.sym "management") "newInteraction" [.bound (.part a) x] kw = (do
      let s ← M.get
      if s.app.acting.isSome then M.throw .existingInteraction
      else
        M.modify fun s => { s with app := { s.app with acting := some a } }
        pure (.v .none)) from rfl]
  rw [fork_bind, fork_get, fork_ite]
  rfl
theorem f3_end (kw : List (Name × PV)) : fork (smMethod3 (.sym "management") "endInteraction" [] kw) k h s = k (.v .none) (withActing s none) := (rfl)
theorem f3_keys (kw : List (Name × PV)) : fork (smMethod3 (.sym "_homes") "keys" [] kw) k h s
    = k (viewV (s.app.homes.keys.map textV)) s := (rfl)
theorem f3_getHome : fork (smMethod3 (.part a) "getHome" [] []) k h s = k (homeV (s.app.agents a).home) s := f1_getHome k h s a
theorem s3_remove (l x : List PV) (n : Name) (kw : List (Name × PV)) : smMethod3 (.bound (.list l) n) "remove" x kw = M.throw (.attributeError "remove") := (rfl)
theorem sm3_call : simLang3.call = smCall := (rfl)
theorem sm3_getattr : simLang3.getattr = smGetattr := (rfl)
theorem f3_boxId : fork (smMethod3 (.slice (.v (.obj b)) (.v (.bool p))) "getId" [] []) k h s = k (textV (s.app.boxes b).id) s := by
  have hg : guardBox b p "getId" s = (.ok (), s) := by cases p <;> rfl
  have hr : run simLang1 Sandbox.Identity.getId [boxV ⟨b, false⟩] s = (.ok (textV (s.app.boxes b).id), s) := by
    refine fork_run ?_
    smsteps [Sandbox.Identity.getId]
    rfl
  show fork (guardBox b p "getId" >>= fun _ => run simLang1 Sandbox.Identity.getId [boxV ⟨b, false⟩]) k h s = _
  rw [fork_bind]
  unfold fork
  rw [hg]
  dsimp only
  rw [hr]
end

/-- **C92** `TimeGenerator.setupAgent` (examples/sandbox.py:243-244; examples/sandbox_security.py:181-182). -/
theorem C92_setup (self : PV) (a : Nat) (s : St Sim) :
    (s.app.secured = false → run simLang3 Sandbox.TimeGenerator.setupAgent [self, agentV a] s = liftSm (setupAgent a) (fun _ => .v .none) s)
    ∧ (s.app.secured = true → run simLang3 SandboxSecurity.wire_security.setupAgent [self, agentV a] s
        = liftSm (setupAgent a) (fun _ => .v .none) s) := by
  have h0 : setupAgent a s.app = (if s.app.secured = true then (if s.app.acting.isSome = true then (.error .assertion, s.app)
      else (.ok (), { s.app with acting := some a })) else (.ok (), s.app)) := by
    show (if s.app.secured = true then _ else _ : Sm Unit) s.app = _
    split
    · show (if s.app.acting.isSome = true then _ else _ : Sm Unit) s.app = _
      split <;> rfl
    · rfl
  constructor
  · intro hs
    unfold liftSm
    rw [h0, hs]
    refine fork_run ?_
    smsteps [Sandbox.TimeGenerator.setupAgent]
    rfl
  · intro hs
    unfold liftSm
    rw [h0, hs]
    refine fork_run ?_
    cases ha : s.app.acting.isSome
    · smsteps [SandboxSecurity.wire_security.setupAgent, sm3_call, f3_new, ha]
      rfl
    · smsteps [SandboxSecurity.wire_security.setupAgent, sm3_call, f3_new, ha]
      rfl

/-- **C92** `TimeGenerator.teardownAgent` (examples/sandbox.py:246-247; examples/sandbox_security.py:186-187). -/
theorem C92_teardown (self : PV) (a : Nat) (s : St Sim) :
    (s.app.secured = false → run simLang3 Sandbox.TimeGenerator.teardownAgent [self, agentV a] s = liftSm teardownAgent (fun _ => .v .none) s)
    ∧ (s.app.secured = true → run simLang3 SandboxSecurity.wire_security.teardownAgent [self, agentV a] s
        = liftSm teardownAgent (fun _ => .v .none) s) := by
  have h0 : teardownAgent s.app = (if s.app.secured = true then (.ok (), { s.app with acting := none }) else (.ok (), s.app)) := by
    show (if s.app.secured = true then _ else _ : Sm Unit) s.app = _
    split <;> rfl
  constructor
  · intro hs
    unfold liftSm
    rw [h0, hs]
    refine fork_run ?_
    smsteps [Sandbox.TimeGenerator.teardownAgent]
    rfl
  · intro hs
    unfold liftSm
    rw [h0, hs]
    refine fork_run ?_
    smsteps [SandboxSecurity.wire_security.teardownAgent, f3_end]
    rfl

/-- **C92** Neither `GreenerPastures` (examples/sandbox.py:290-295; examples/sandbox_security.py:191-198) finds a home: what
`_homes.keys()` gives has no `remove`. -/
theorem C92_pastures (a : Nat) (s : St Sim) (hh : (s.app.agents a).home ≠ none) :
    run simLang3 Sandbox.GreenerPastures [agentV a] s = liftSm (greenerPastures a) boxV s
    ∧ run simLang3 SandboxSecurity.wire_security.GreenerPastures [agentV a] s = liftSm (greenerPastures a) boxV s := by
  obtain ⟨r, hr⟩ := Option.ne_none_iff_exists'.1 hh
  have hv : homeV (s.app.agents a).home = .slice (.v (.obj r.box)) (.v (.bool r.proxied)) := by rw [hr]; rfl
  constructor
  · refine fork_run ?_
    smsteps [Sandbox.GreenerPastures, f3_keys, f3_getHome, hv, f3_boxId, s3_remove]
    rfl
  · refine fork_run ?_
    smsteps [SandboxSecurity.wire_security.GreenerPastures, sm3_getattr, f3_keys, f3_getHome, hv, f3_boxId, s3_remove]
    rfl

/-! ## Moves, from source -/

/-- `try: x except Exception: …`, the text printed left out. -/
def caught (x : M Sim PV) : M Sim Unit := fun s =>
  match x s with
  | (.ok _, t) => (.ok (), t)
  | (.err _, t) => (.ok (), t)
  | (.diverge, t) => (.diverge, t)

/-- `setupAgent` as it is in the class now. -/
def srcSetup (a : Nat) : M Sim PV := do
  let s ← M.get
  if s.app.secured then run simLang3 SandboxSecurity.wire_security.setupAgent [.v .none, agentV a]
  else run simLang3 Sandbox.TimeGenerator.setupAgent [.v .none, agentV a]

/-- `teardownAgent` as it is in the class now. -/
def srcTeardown (a : Nat) : M Sim PV := do
  let s ← M.get
  if s.app.secured then run simLang3 SandboxSecurity.wire_security.teardownAgent [.v .none, agentV a]
  else run simLang3 Sandbox.TimeGenerator.teardownAgent [.v .none, agentV a]

/-- A move (`Spec.Travel.run`) made by the functions of the source. -/
def srcTravel : Spec.Travel → M Sim Unit
  | .send c a d => do
    let _ ← srcSetup c
    caught (do let home ← smMethod3 (agentV c) "getHome" [] []; smMethod3 home "transportAgent" [agentV a, boxV d] [])
    let _ ← srcTeardown c
    pure ()
  | .settle b a => do
    let s ← M.get
    if (s.app.agents a).home = none then caught (smMethod2 (boxV ⟨b, false⟩) "addAgent" [agentV a] [])
    else pure ()

/-- Moves one after the other. -/
def srcTravels : List Spec.Travel → St Sim → St Sim
  | [], s => s
  | m :: ms, s => srcTravels ms (srcTravel m s).2

theorem src_setup (a : Nat) : srcSetup a = liftSm (setupAgent a) (fun _ => .v .none) := by
  funext s
  show (if s.app.secured then _ else _ : M Sim PV) s = _
  cases hs : s.app.secured
  · exact (C92_setup (.v .none) a s).1 hs
  · exact (C92_setup (.v .none) a s).2 hs

theorem src_teardown (a : Nat) : srcTeardown a = liftSm teardownAgent (fun _ => .v .none) := by
  funext s
  show (if s.app.secured then _ else _ : M Sim PV) s = _
  cases hs : s.app.secured
  · exact (C92_teardown (.v .none) a s).1 hs
  · exact (C92_teardown (.v .none) a s).2 hs

theorem caught_lift (x : Sm Unit) (f : Unit → PV) : caught (liftSm x f) = liftSm (Sm.attempt x (fun _ => pure ())) id := by
  funext s
  unfold caught liftSm Sm.attempt
  rcases x s.app with ⟨_ | _, _⟩ <;> rfl

/-- **C92** A move made by the source is that of the model. -/
theorem C92_travel (m : Spec.Travel) : srcTravel m = liftSm m.run id := by
  cases m with
  | send c a d =>
    funext s
    show M.bind (srcSetup c) (fun _ => M.bind (caught _) fun _ => M.bind (srcTeardown c) fun _ => pure ()) s
      = liftSm (Sm.bind (setupAgent c) fun _ => Sm.bind (Sm.attempt (sendFrom c a d) fun _ => pure ()) fun _ => teardownAgent) id s
    rw [C92_send, src_setup, src_teardown, caught_lift]
    unfold liftSm M.bind Sm.bind
    beta_reduce
    rcases setupAgent c s.app with ⟨_ | _, s1⟩
    · rfl
    · dsimp only
      rcases Sm.attempt (sendFrom c a d) (fun _ => pure ()) s1 with ⟨_ | _, s2⟩
      · rfl
      · dsimp only
        rcases teardownAgent s2 with ⟨_ | _, s3⟩ <;> rfl
  | settle b a =>
    funext s
    show (if (s.app.agents a).home = none then _ else _ : M Sim Unit) s = _
    rw [C92_add, caught_lift]
    by_cases hh : (s.app.agents a).home = none
    · rw [if_pos hh]
      refine liftSm_congr (y := (Spec.Travel.settle b a).run) ?_ id
      show _ = if (s.app.agents a).home = none then _ else _
      rw [if_pos hh]
      rfl
    · rw [if_neg hh]
      have h0 : (Spec.Travel.settle b a).run s.app = (.ok (), s.app) := by
        show (if (s.app.agents a).home = none then _ else _) = _
        rw [if_neg hh]
      unfold liftSm
      rw [h0]
      rfl

/-- **C92** So are many. -/
theorem C92_travels (ms : List Spec.Travel) (s : St Sim) : (srcTravels ms s).app = runTravels ms s.app := by
  induction ms generalizing s with
  | nil => rfl
  | cons m ms ih =>
    show (srcTravels ms (srcTravel m s).2).app = runTravels ms (m.run s.app).2
    have : (srcTravel m s).2.app = (m.run s.app).2 := by
      rw [C92_travel]
      unfold liftSm
      rcases m.run s.app with ⟨_ | _, _⟩ <;> rfl
    rw [ih, this]

/-- **C92** With the functions of the source, too, jail is a prison and valhalla closed to who is not sent by norse legends. -/
theorem C92_prison (s : St Sim) (hs : Settled s.app) (hi : DistinctIds s.app) (hw : Wired s.app) (ms : List Spec.Travel) (a b : Nat)
    (hm : SentWithout "norse legend" s.app a ms) :
    ((s.app.boxes b).id = "jail" → Lives s.app a b → Lives (srcTravels ms s).app a b)
    ∧ ((s.app.boxes b).id = "valhalla" → (s.app.agents a).home ≠ none → Lives (srcTravels ms s).app a b → Lives s.app a b) := by
  rw [C92_travels]
  exact ⟨fun hb ha => C61_prison s.app hs hi hw ms a b hb ha hm, fun hb hh h => C61_valhalla s.app hs hi hw ms a b hb hh hm h⟩

/-! ## Cases -/

/-- The state the module starts with, wired or not. -/
def started (s : St Sim) (b : Bool) : St Sim := { s with app := boot b }

example (s : St Sim) : (started s false).app.secured = false ∧ (started s true).app.secured = true
    ∧ ((started s true).app.agents 0).home ≠ none :=
  ⟨rfl, rfl, show ((boot true).agents 0).home ≠ none by decide +kernel⟩

/-- An agent made after `wire_security` and added to a sandbox by its source: with nobody acting the source of its action
raises what the policy does without an interaction. -/
def newcomer (s : St Sim) : St Sim := (smMethod2 (boxV ⟨2, false⟩) "addAgent" [agentV 7] [] (started s true)).2

example (s : St Sim) : (run simLang4 Sandbox.Agent.action [agentV 7] (newcomer s)).1 = .err (.attributeError "interaction")
    ∧ (run simLang4 Sandbox.Agent.action [agentV 7] (withActing (newcomer s) (some 0))).1 = .ok (.v .none) := by
  rw [newcomer, C92_add, C92_act]; exact ⟨rfl, rfl⟩

/-- The wired start meets the conditions of `C92_prison`. -/
example (s : St Sim) : Settled (started s true).app ∧ DistinctIds (started s true).app ∧ Wired (started s true).app :=
  C61_boot true

end ZS.Props
