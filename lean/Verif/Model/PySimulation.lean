import Verif.Model.PySandbox
import Verif.Model.Simulation
import Verif.Source.Sandbox

/-!
# What the names in the source of examples/sandbox.py mean

The objects of the simulation are those of Model/Simulation.lean.  The languages are layered: methods of agents are run
from source by `simLang1` and up, those of sandboxes by `simLang2` and `simLang3`, actions by `simLang4`.  A method of a
proxied sandbox or service is asked for first (`decideSim`).
-/

namespace ZS.PyC
open ZS

/-- The exceptions of the simulation. -/
def simExn : SimErr → Exn
  | .sandbox => .other 0
  | .unauthorized p => .unauthorized .none "" p
  | .forbidden n => .forbidden n .none
  | .attribute n => .attributeError n
  | .assertion => .existingInteraction
  | .unboundLocal => .other 1
  | .runtime => .other 2
  | .policy => .other 3

/-- A program of the simulation as one of the interpreter. -/
def liftSm {α β : Type} (x : Sm α) (f : α → β) : M Sim β := fun s =>
  match x s.app with
  | (.ok a, t) => (.ok (f a), { s with app := t })
  | (.error e, t) => (.err (simExn e), { s with app := t })

/-- A sandbox, or its proxy. -/
abbrev boxV (r : Ref) : PV := .slice (.v (.obj r.box)) (.v (.bool r.proxied))

/-- An agent. -/
abbrev agentV (a : Nat) : PV := .part a

/-- The dictionary `_agents` or `_services` of a sandbox. -/
abbrev bookV (b : Nat) (n : Name) : PV := .bound (.v (.obj b)) n

/-- A service of a sandbox, got from it or through its proxy. -/
abbrev serviceV (r : Ref) (sid : String) : PV := .bound (boxV r) sid

/-- The keys or the values of a dictionary. -/
abbrev viewV (l : List PV) : PV := .bound (.list l) "view"

/-- Where an agent lives. -/
def homeV : Option Ref → PV
  | some r => boxV r
  | none => .v .none

/-- What an action gives. -/
def answerV : Answer → PV
  | .time => .sym "now"
  | .agents l => viewV (l.map agentV)
  | .ids l => viewV (l.map textV)

/-- Modules, classes, interfaces and `_homes`. -/
def simSymbols : List Name :=
  ["IAgent", "ISandbox", "SandboxError", "sandbox", "checker", "management", "AgentParticipation", "random", "time", "_homes"]

def smGlob (n : Name) : M Sim PV :=
  if n ∈ simSymbols then pure (.sym n)
  else if n = "import random" then pure (.sym "random")
  else stuck

/-- Attributes. -/
def smGetattr (o : PV) (n : Name) : M Sim PV :=
  match o with
  | .part a =>
    if n = "id" then (do let s ← M.get; pure (textV (s.app.agents a).id))
    else if n = "home" then (do let s ← M.get; pure (homeV (s.app.agents a).home))
    else if n = "auth_token" then (do let s ← M.get; pure (textV (s.app.agents a).token))
    else stuck
  | .slice (.v (.obj b)) (.v (.bool false)) =>
    if n = "id" then (do let s ← M.get; pure (textV (s.app.boxes b).id))
    else if n = "_agents" then pure (bookV b "_agents")
    else if n = "_services" then pure (bookV b "_services")
    else stuck
  | .sym m => if m = "sandbox" ∧ n ∈ ["_homes", "IAgent"] then pure (.sym n) else stuck
  | _ => stuck

/-- The assignment `agent.home = ...`. -/
def smSetattr (o : PV) (n : Name) (x : PV) : M Sim Unit :=
  match o, x with
  | .part a, .slice (.v (.obj b)) (.v (.bool p)) =>
    if n = "home" then
      M.modify fun s => { s with app := { s.app with agents := fun k => if k = a then { s.app.agents a with home := some ⟨b, p⟩ } else s.app.agents k } }
    else stuck
  | _, _ => stuck

/-- The assignment `self._agents[id] = agent`. -/
def smSetitem (d k x : PV) : M Sim Unit :=
  match d, k, x with
  | .bound (.v (.obj b)) n, .v (.str _ i), .part a =>
    if n = "_agents" then
      M.modify fun s => { s with app := { s.app with
        boxes := fun k => if k = b then { s.app.boxes b with agents := (s.app.boxes b).agents.set i a } else s.app.boxes k } }
    else stuck
  | _, _, _ => stuck

/-- `del self._agents[id]`. -/
def smDelitem (d k : PV) : M Sim Unit :=
  match d, k with
  | .bound (.v (.obj b)) n, .v (.str _ i) =>
    if n = "_agents" then (do
      let s ← M.get
      if (s.app.boxes b).agents.mem i then
        M.modify fun s => { s with app := { s.app with
          boxes := fun k => if k = b then { s.app.boxes b with agents := (s.app.boxes b).agents.del i } else s.app.boxes k } }
      else M.throw .keyError)
    else stuck
  | _, _ => stuck

/-- `id in self._agents`. -/
def smIn (x y : PV) : M Sim Bool :=
  match x, y with
  | .v (.str _ i), .bound (.v (.obj b)) n => if n = "_agents" then (do let s ← M.get; pure ((s.app.boxes b).agents.mem i)) else stuck
  | _, _ => stuck

def smCompare (op : CmpOp) (x y : PV) : M Sim PV :=
  match op with
  | .isIn => do let r ← smIn x y; pure (.v (.bool r))
  | .notIn => do let r ← smIn x y; pure (.v (.bool (!r)))
  | _ => stuck

/-- Identity: a sandbox is not its proxy. -/
def smSame : PV → PV → Bool
  | .slice (.v (.obj b)) (.v (.bool p)), .slice (.v (.obj c)) (.v (.bool q)) => decide (b = c ∧ p = q)
  | _, _ => false

/-- Methods of dictionaries, of modules and of interfaces. -/
def smMethod0 (o : PV) (m : Name) (args : List PV) (_ : List (Name × PV)) : M Sim PV :=
  match o with
  | .sym o =>
    if o = "IAgent" then
      (match args with
      | [.part _] => if m = "providedBy" then pure (.v (.bool true)) else stuck
      | _ => stuck)
    else if o = "ISandbox" then
      (match args with
      | [.slice _ _] => if m = "providedBy" then pure (.v (.bool true)) else stuck
      | _ => stuck)
    else if o = "sandbox" then (if m = "SandboxError" then pure (.exn (simExn .sandbox)) else stuck)
    else if o = "_homes" then (if m = "keys" then (do let s ← M.get; pure (viewV (s.app.homes.keys.map textV))) else stuck)
    else if o = "time" then (if m = "time" then pure (.sym "now") else stuck)
    else if o = "checker" then
      (match args with
      | [.slice (.v (.obj b)) (.v (.bool false))] =>
        if m = "selectChecker" then (do let s ← M.get; pure (if s.app.secured then .sup (boxV ⟨b, false⟩) else .v .none)) else stuck
      | _ => stuck)
    else if o = "management" then
      (match args with
      | [.bound (.part a) _] =>
        if m = "newInteraction" then (do
          let s ← M.get
          if s.app.acting.isSome then M.throw .existingInteraction
          else
            M.modify fun s => { s with app := { s.app with acting := some a } }
            pure (.v .none))
        else stuck
      | [] =>
        if m = "endInteraction" then (do
          M.modify fun s => { s with app := { s.app with acting := none } }
          pure (.v .none))
        else stuck
      | _ => stuck)
    else stuck
  | .sup _ =>
    (match args with
    | [.slice (.v (.obj b)) (.v (.bool false))] => if m = "proxy" then pure (boxV ⟨b, true⟩) else stuck
    | _ => stuck)
  | .bound (.v (.obj b)) n =>
    if n = "_agents" then
      (if m = "keys" then (do let s ← M.get; pure (viewV ((s.app.boxes b).agents.keys.map textV)))
      else if m = "values" then (do let s ← M.get; pure (viewV ((s.app.boxes b).agents.map fun p => agentV p.2)))
      else stuck)
    else if n = "_services" then
      (match args with
      | [] => if m = "keys" then (do let s ← M.get; pure (viewV ((s.app.boxes b).services.map textV))) else stuck
      | [.v (.str _ i)] =>
        if m = "get" then (do
          let s ← M.get
          pure (if i ∈ (s.app.boxes b).services then serviceV ⟨b, false⟩ i else .v .none))
        else stuck
      | _ => stuck)
    else stuck
  | .bound (.list _) _ => M.throw (.attributeError m)
  | .v (.str _ _) => if m = "format" then pure (textV "") else stuck
  | .v .none => M.throw (.attributeError m)
  | _ => stuck

/-- Calls of classes. -/
def smCall (f : PV) (args : List PV) (_ : List (Name × PV)) : M Sim PV :=
  match f with
  | .sym f =>
    if f = "SandboxError" then pure (.exn (simExn .sandbox))
    else
      (match args with
      | [.part a] => if f = "AgentParticipation" then pure (.bound (.part a) "participation") else stuck
      | _ => stuck)
  | _ => stuck

/-- The language of the methods of agents. -/
def simLang0 : Lang Sim where
  glob := smGlob
  setGlob := fun _ _ => stuck
  getattr := smGetattr
  setattr := smSetattr
  delattr := fun _ _ => stuck
  getitem := fun _ _ => stuck
  setitem := smSetitem
  delitem := smDelitem
  method := smMethod0
  call := smCall
  same := smSame
  compare := smCompare
  bin := fun _ _ _ => pure (textV "")
  truth := sbTruth'
  fmt := fun _ _ => stuck
  join := fun _ => stuck
  newDict := fun _ => stuck
  iter := fun _ => stuck
  unpack := fun _ => none
  catches := fun _ _ => false
  toExn := ltoExn
  fuel := 0
where
  sbTruth' : PV → M Sim Bool
    | .v (.bool b) => pure b
    | _ => stuck

/-- Methods of agents. -/
def smMethod1 (o : PV) (m : Name) (args : List PV) (kws : List (Name × PV)) : M Sim PV :=
  match o with
  | .part a =>
    if m = "getId" then runIn simLang0 Src.Sandbox.Identity.getId [] (agentV a :: args) kws
    else if m = "getHome" then runIn simLang0 Src.Sandbox.Agent.getHome [] (agentV a :: args) kws
    else if m = "setHome" then runIn simLang0 Src.Sandbox.Agent.setHome [] (agentV a :: args) kws
    else if m = "getAuthenticationToken" then runIn simLang0 Src.Sandbox.Agent.getAuthenticationToken [] (agentV a :: args) kws
    else stuck
  | o => smMethod0 o m args kws

def simLang1 : Lang Sim := { simLang0 with method := smMethod1 }

/-- A method of a sandbox is asked for if that is proxied. -/
def guardBox (b : Nat) (p : Bool) (m : Name) : M Sim Unit := liftSm (through ⟨b, p⟩ m (pure ())) id

/-- What a proxied sandbox gives is proxied. -/
def wrapped (p : Bool) : PV → PV
  | .bound (.slice (.v (.obj b)) (.v (.bool q))) sid => .bound (.slice (.v (.obj b)) (.v (.bool (p || q)))) sid
  | x => x

/-- Methods of sandboxes: `addAgent` is that of the class until `wire_security` puts its own there. -/
def smMethod2 (o : PV) (m : Name) (args : List PV) (kws : List (Name × PV)) : M Sim PV :=
  match o with
  | .slice (.v (.obj b)) (.v (.bool p)) => do
    guardBox b p m
    if m = "addAgent" then
      let s ← M.get
      if s.app.secured then runIn simLang1 Src.SandboxSecurity.wire_security.addAgent [] (boxV ⟨b, false⟩ :: args) kws
      else runIn simLang1 Src.Sandbox.Sandbox.addAgent [] (boxV ⟨b, false⟩ :: args) kws
    else if m = "getAgents" then runIn simLang1 Src.Sandbox.Sandbox.getAgents [] (boxV ⟨b, false⟩ :: args) kws
    else if m = "getId" then runIn simLang1 Src.Sandbox.Identity.getId [] (boxV ⟨b, false⟩ :: args) kws
    else if m = "getService" then
      let x ← runIn simLang1 Src.Sandbox.Sandbox.getService [] (boxV ⟨b, false⟩ :: args) kws
      pure (wrapped p x)
    else stuck
  | o => smMethod1 o m args kws

def simLang2 : Lang Sim := { simLang0 with method := smMethod2 }

/-- Asking for a method of a service. -/
def guardService (b : Nat) (p : Bool) (sid : String) (m : Name) : M Sim Unit :=
  liftSm (do
    if p then
      let id ← Sm.read fun s => (s.boxes b).id
      decideSim (serviceSecurity sid) id m) id

/-- `transportAgent`, and methods of services. -/
def smMethod3 (o : PV) (m : Name) (args : List PV) (kws : List (Name × PV)) : M Sim PV :=
  match o with
  | .slice (.v (.obj b)) (.v (.bool p)) =>
    if m = "transportAgent" then (do
      guardBox b p m
      runIn simLang2 Src.Sandbox.Sandbox.transportAgent [] (boxV ⟨b, false⟩ :: args) kws)
    else smMethod2 o m args kws
  | .bound (.slice (.v (.obj b)) (.v (.bool p))) sid => do
    guardService b p sid m
    if sid = "HomeDiscoveryService" ∧ m = "getAvailableHomes" then
      runIn simLang2 Src.Sandbox.HomeDiscoveryService.getAvailableHomes [] (serviceV ⟨b, false⟩ sid :: args) kws
    else if sid = "AgentDiscoveryService" ∧ m = "getLocalAgents" then
      runIn simLang2 Src.Sandbox.AgentDiscoveryService.getLocalAgents [] (serviceV ⟨b, false⟩ sid :: args) kws
    else if sid = "TimeService" ∧ m = "getTime" then
      runIn simLang2 Src.Sandbox.TimeService.getTime [] (serviceV ⟨b, false⟩ sid :: args) kws
    else stuck
  | o => smMethod2 o m args kws

def simLang3 : Lang Sim := { simLang0 with method := smMethod3 }

/-- The functions the agents are made with (examples/sandbox.py:315-322). -/
def deedFn : Deed → Fn
  | .findHomes => Src.Sandbox.action_find_homes
  | .findNeighbors => Src.Sandbox.action_find_neighbors
  | .findTime => Src.Sandbox.action_find_time

/-- `self._action(...)`. -/
def smMethod4 (o : PV) (m : Name) (args : List PV) (kws : List (Name × PV)) : M Sim PV :=
  match o with
  | .part a =>
    if m = "_action" then (do
      let s ← M.get
      runIn simLang3 (deedFn (s.app.agents a).deed) [] args kws)
    else smMethod3 (.part a) m args kws
  | o => smMethod3 o m args kws

def simLang4 : Lang Sim := { simLang0 with method := smMethod4 }

end ZS.PyC
