import Verif.Model.PySimulation

/-!
# What the names mean where the world of examples/sandbox.py is made

Agents, sandboxes and services being made, and the two loops at the end of the module.  The home of a service is not kept: it is the sandbox that has the
service.
-/

namespace ZS.PyC
open ZS

/-- A service just made. -/
abbrev newServiceV (n : Name) : PV := .bound (.sym "service") n

/-- The function of an action. -/
def deedSym : Deed → Name
  | .findTime => "action_find_time"
  | .findNeighbors => "action_find_neighbors"
  | .findHomes => "action_find_homes"

def deedNamed (n : Name) : Option Deed :=
  if n = "action_find_time" then some .findTime
  else if n = "action_find_neighbors" then some .findNeighbors
  else if n = "action_find_homes" then some .findHomes
  else none

/-- An agent changed. -/
def putAgent (s : St Sim) (a : Nat) (f : Agent → Agent) : St Sim :=
  { s with app := { s.app with agents := fun k => if k = a then f (s.app.agents a) else s.app.agents k } }

/-- A sandbox changed. -/
def putBox (s : St Sim) (b : Nat) (f : Box → Box) : St Sim :=
  { s with app := { s.app with boxes := fun k => if k = b then f (s.app.boxes b) else s.app.boxes k } }

/-- `_homes` changed. -/
def putHome (s : St Sim) (n : String) (b : Nat) : St Sim := { s with app := { s.app with homes := s.app.homes.set n b } }

/-- The names of the module: the tuple of sandboxes `hs`, the list of agents `ags`, the sandbox `o`. -/
def wdGlob (hs ags : List Nat) (o : Nat) (n : Name) : M Sim PV :=
  if n = "all_homes" then pure (.tuple (hs.map fun b => boxV ⟨b, false⟩))
  else if n = "agents" then pure (.list (ags.map agentV))
  else if n = "origin" then pure (boxV ⟨o, false⟩)
  else if n = "IService" then pure (.sym n)
  else smGlob n

/-- Attributes of services. -/
def wdGetattr (o : PV) (n : Name) : M Sim PV :=
  match o with
  | .bound (.sym _) c => if n = "__class__" then pure (.bound (.v .none) c) else stuck
  | .bound (.v .none) c => if n = "__name__" then pure (textV c) else stuck
  | o => smGetattr o n

/-- Assignments to attributes in constructors. -/
def wdSetattr (o : PV) (n : Name) (x : PV) : M Sim Unit :=
  match o with
  | .part a =>
    (match x with
    | .v (.str _ t) =>
      if n = "id" then M.modify fun s => putAgent s a fun g => { g with id := t }
      else if n = "auth_token" then M.modify fun s => putAgent s a fun g => { g with token := t }
      else stuck
    | .v .none => if n = "home" then M.modify fun s => putAgent s a fun g => { g with home := none } else stuck
    | .sym f =>
      if n = "_action" then
        (match deedNamed f with
        | some d => M.modify fun s => putAgent s a fun g => { g with deed := d }
        | none => stuck)
      else stuck
    | _ => stuck)
  | .slice (.v (.obj b)) (.v (.bool false)) =>
    (match x with
    | .v (.str _ t) => if n = "id" then M.modify fun s => putBox s b fun g => { g with id := t } else stuck
    | .sym e =>
      if e = "{}" then
        (if n = "_services" then M.modify fun s => putBox s b fun g => { g with services := [] }
        else if n = "_agents" then M.modify fun s => putBox s b fun g => { g with agents := [] }
        else stuck)
      else stuck
    | _ => stuck)
  | .bound (.sym _) _ => if n = "_home" then pure () else stuck
  | _ => stuck

/-- The assignments `self._services[id] = service` and `_homes[id] = h`. -/
def wdSetitem (d k x : PV) : M Sim Unit :=
  match d, k, x with
  | .bound (.v (.obj b)) n, .v (.str _ i), .bound (.sym _) c =>
    if n = "_services" ∧ i = c then
      M.modify fun s => putBox s b fun g => { g with services := if i ∈ g.services then g.services else g.services ++ [i] }
    else stuck
  | .sym n, .v (.str _ i), .slice (.v (.obj b)) (.v (.bool false)) => if n = "_homes" then M.modify fun s => putHome s i b else stuck
  | _, _, _ => stuck

/-- `id in self._services`. -/
def wdCompare (op : CmpOp) (x y : PV) : M Sim PV :=
  match op, x, y with
  | .isIn, .v (.str _ i), .bound (.v (.obj b)) n =>
    if n = "_services" then (do let s ← M.get; pure (.v (.bool (decide (i ∈ (s.app.boxes b).services))))) else stuck
  | _, _, _ => stuck

/-- Calling the class of a service. -/
def wdCall (f : PV) (args : List PV) (kws : List (Name × PV)) : M Sim PV :=
  match f with
  | .bound (.v .none) c =>
    (match args with
    | [] => pure (newServiceV c)
    | _ => stuck)
  | f => smCall f args kws

def wdIter (x : PV) : M Sim (List PV) :=
  match x with
  | .list l => pure l
  | .tuple l => pure l
  | _ => stuck

/-- `{}`. -/
def wdNewDict (l : List PV) : M Sim PV :=
  match l with
  | [] => pure (.sym "{}")
  | _ => stuck

/-- The language of the methods of services. -/
def worldLang0 (hs ags : List Nat) (o : Nat) : Lang Sim :=
  { simLang0 with
    glob := wdGlob hs ags o
    getattr := wdGetattr
    setattr := wdSetattr
    setitem := wdSetitem
    compare := wdCompare
    call := wdCall
    iter := wdIter
    newDict := wdNewDict
    method := smMethod3 }

/-- Methods of services, and of sandboxes as before. -/
def wdMethod1 (hs ags : List Nat) (o : Nat) (x : PV) (m : Name) (args : List PV) (kws : List (Name × PV)) : M Sim PV :=
  match x with
  | .bound (.sym _) c =>
    if m = "getId" then runIn (worldLang0 hs ags o) Src.Sandbox.Service.getId [] (newServiceV c :: args) kws
    else if m = "setHome" then runIn (worldLang0 hs ags o) Src.Sandbox.Service.setHome [] (newServiceV c :: args) kws
    else stuck
  | .sym n => if n = "IService" ∧ m = "providedBy" then pure (.v (.bool true)) else stuck
  | x => smMethod3 x m args kws

def worldLang1 (hs ags : List Nat) (o : Nat) : Lang Sim := { worldLang0 hs ags o with method := wdMethod1 hs ags o }

/-- `self.addService(...)` while a sandbox is made. -/
def wdMethod2 (hs ags : List Nat) (o : Nat) (x : PV) (m : Name) (args : List PV) (kws : List (Name × PV)) : M Sim PV :=
  match x with
  | .slice (.v (.obj b)) (.v (.bool false)) =>
    if m = "addService" then runIn (worldLang1 hs ags o) Src.Sandbox.Sandbox.addService [] (boxV ⟨b, false⟩ :: args) kws
    else smMethod3 x m args kws
  | x => smMethod3 x m args kws

def worldLang (hs ags : List Nat) (o : Nat) : Lang Sim := { worldLang0 hs ags o with method := wdMethod2 hs ags o }

/-- The names used where the module makes its objects. -/
def wdNames (n : Name) : M Sim PV :=
  if n = "Sandbox" ∨ n = "Agent" ∨ n = "action_find_time" ∨ n = "action_find_neighbors" ∨ n = "action_find_homes" then pure (.sym n)
  else if n = "HomeDiscoveryService" ∨ n = "AgentDiscoveryService" ∨ n = "TimeService" then pure (.bound (.v .none) n)
  else smGlob n

/-- Making an object: `bn i` is the number of the sandbox, `an i` that of the agent made with the id `i`. -/
def wdMake (bn an : String → Nat) (f : PV) (args : List PV) (kws : List (Name × PV)) : M Sim PV :=
  match f, args with
  | .sym c, .v (.str _ i) :: _ =>
    if c = "Sandbox" then do
      let _ ← runIn (worldLang [] [] 0) Src.Sandbox.Sandbox.__init__ [] (boxV ⟨bn i, false⟩ :: args) kws
      pure (boxV ⟨bn i, false⟩)
    else if c = "Agent" then do
      let _ ← runIn (worldLang [] [] 0) Src.Sandbox.Agent.__init__ [] (agentV (an i) :: args) kws
      pure (agentV (an i))
    else stuck
  | _, _ => stuck

/-- `all_homes[1]`. -/
def wdGetitem (x i : PV) : M Sim PV :=
  match x, i with
  | .tuple l, .v (.int n) => (match l[n.toNat]? with
    | some y => pure y
    | none => stuck)
  | _, _ => stuck

/-- The language of the module itself. -/
def makingLang (bn an : String → Nat) : Lang Sim :=
  { worldLang [] [] 0 with
    glob := wdNames
    call := wdMake bn an
    getitem := wdGetitem }

end ZS.PyC
