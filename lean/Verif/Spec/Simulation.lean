import Verif.Model.Simulation

/-!
# Specification of the simulation
-/

namespace ZS.Spec

/-- The agent lives in the sandbox. -/
def Lives (s : Sim) (a b : Nat) : Prop := ∃ r, (s.agents a).home = some r ∧ r.box = b

/-- The books are right: a sandbox lists, under their ids, the agents living there and nobody else. -/
def Settled (s : Sim) : Prop := ∀ b k a, (s.boxes b).agents.get? k = some a ↔ k = (s.agents a).id ∧ Lives s a b

/-- No two agents have the same id. -/
def DistinctIds (s : Sim) : Prop := ∀ a a', (s.agents a).id = (s.agents a').id → a = a'

/-- As `wire_security` has it: who does not live at the origin has a proxied home. -/
def Wired (s : Sim) : Prop :=
  s.secured = true ∧ ∀ a r, (s.agents a).home = some r → r.proxied = true ∨ (s.boxes r.box).id = "origin"

/-- What the agents' code may do in its turn. -/
inductive Travel where
  /-- Agent `c` asks its home to send agent `a` to `d`. -/
  | send (c a : Nat) (d : Ref)
  /-- Somebody without a home is settled. -/
  | settle (b a : Nat)

/-- One move: with an interaction for the acting agent; exceptions are caught. -/
def Travel.run : Travel → Sm Unit
  | .send c a d => do
    setupAgent c
    Sm.attempt (sendFrom c a d) (fun _ => pure ())
    teardownAgent
  | .settle b a => fun s => if (s.agents a).home = none then Sm.attempt (addAgent b a) (fun _ => pure ()) s else (.ok (), s)

/-- Moves one after the other. -/
def runTravels : List Travel → Sim → Sim
  | [], s => s
  | m :: ms, s => runTravels ms (m.run s).2

/-- Agent `a` is sent by agents without that token only (if at all), and to proxied destinations, as
those from `GreenerPastures` are. -/
def SentWithout (token : String) (s : Sim) (a : Nat) (ms : List Travel) : Prop :=
  ∀ c d, .send c a d ∈ ms → (s.agents c).token ≠ token ∧ d.proxied = true

/-- The last thing done by `send`. -/
def sent (s : Sim) (b a d : Nat) : Sim :=
  { s with
    boxes := fun k =>
      if k = b then { s.boxes b with agents := (s.boxes b).agents.del (s.agents a).id }
      else if k = d then { s.boxes d with agents := (s.boxes d).agents.set (s.agents a).id a }
      else s.boxes k
    agents := fun k => if k = a then { s.agents a with home := some ⟨d, s.secured⟩ } else s.agents k }

/-- Who may have which method of a sandbox, by the shipped tables. -/
def MayCall (token home : String) (n : Name) : Prop :=
  match n with
  | "getId" | "getHome" => True
  | "getService" | "addService" | "getServiceIds" => home = "origin" ∨ home = "valhalla" ∨ home = "jail" ∧ token = "norse legend"
  | "getAgents" | "getAgentsIds" => home = "origin" ∨ home = "valhalla" ∨ home = "jail" ∧ token = "norse legend"
  | "transportAgent" => home = "origin" ∨ home = "valhalla" ∨ home = "jail" ∧ token = "norse legend"
  | "addAgent" => home = "origin" ∨ home = "jail" ∨ home = "valhalla" ∧ token = "norse legend"
  | _ => False

/-- The same for the method of a service in a sandbox. -/
def MayServe (token home sid : String) : Prop :=
  match sid with
  | "TimeService" => home = "origin" ∨ home = "valhalla" ∨ home = "jail"
  | "HomeDiscoveryService" | "AgentDiscoveryService" => home = "origin" ∨ home = "valhalla" ∨ home = "jail" ∧ token = "norse legend"
  | _ => False

end ZS.Spec
