import Verif.Model.Sandbox

/-!
# The simulation of the sandbox example (examples/sandbox.py, examples/sandbox_security.py)

Agents living in sandboxes, with and without the wiring of `wire_security`.  Agents, sandboxes and
services are known by number.  A reference to a sandbox is a security proxy or bare.  What a
checker does is reduced to its table of permissions and the policy's decision; that the proxies do
this is the subject of the other models.  `print` and the text of exceptions are left out.
-/

namespace ZS

/-- A reference to a sandbox, through a security proxy or not. -/
structure Ref where
  box : Nat
  proxied : Bool
  deriving DecidableEq, Repr

/-- The actions of examples/sandbox.py:219-231. -/
inductive Deed where
  | findTime
  | findNeighbors
  | findHomes
  deriving DecidableEq, Repr

/-- What an action returns. -/
inductive Answer where
  | time
  | agents (l : List Nat)
  | ids (l : List String)
  deriving DecidableEq, Repr

/-- `Agent` (examples/sandbox.py:88-112). -/
structure Agent where
  id : String
  token : String
  home : Option Ref
  deed : Deed
  deriving DecidableEq, Repr

/-- `Sandbox` (examples/sandbox.py:115-127); a service is known by its id, its home is the sandbox
that has it (examples/sandbox.py:152-159, 173-182). -/
structure Box where
  id : String
  agents : PyDict String Nat
  services : List String
  deriving DecidableEq, Repr

/-- The exceptions that occur. -/
inductive SimErr where
  | sandbox                       -- SandboxError
  | unauthorized (perm : Val)
  | forbidden (n : Name)
  | attribute (n : Name)
  | assertion                     -- newInteraction with an interaction active
  | unboundLocal                  -- new_home in the handler of `turn`
  | runtime                       -- dictionary changed size during iteration
  | policy                        -- exception in the policy
  deriving DecidableEq, Repr

/-- The state: the objects, `_homes`, whether `wire_security` has been called, and the agent of the
thread's interaction. -/
structure Sim where
  agents : Nat → Agent
  boxes : Nat → Box
  homes : PyDict String Nat
  secured : Bool
  acting : Option Nat

/-- Programs of the simulation: state changes persist when an exception is raised. -/
def Sm (α : Type) := Sim → Except SimErr α × Sim

namespace Sm
variable {α β : Type}

protected def pure (a : α) : Sm α := fun s => (.ok a, s)

protected def bind (x : Sm α) (f : α → Sm β) : Sm β := fun s =>
  match x s with
  | (.ok a, s') => f a s'
  | (.error e, s') => (.error e, s')

instance : Monad Sm where
  pure := Sm.pure
  bind := Sm.bind

/-- `raise`. -/
def raise (e : SimErr) : Sm α := fun s => (.error e, s)

/-- `try: x except Exception: h`. -/
def attempt (x : Sm α) (h : SimErr → Sm α) : Sm α := fun s =>
  match x s with
  | (.ok a, s') => (.ok a, s')
  | (.error e, s') => h e s'

def read (f : Sim → α) : Sm α := fun s => (.ok (f s), s)

def change (f : Sim → Sim) : Sm Unit := fun s => (.ok (), f s)

end Sm
open Sm

/-- The permission map of `Sandbox` (examples/sandbox_security.py:135-141). -/
def sandboxSecurity : List (Val × List Name) :=
  [(.str 0 "Access Services", ["getService", "addService", "getServiceIds"]),
   (.str 0 "Access Agents", ["getAgentsIds", "getAgents"]),
   (.str 0 "Add Agent", ["addAgent"]),
   (.str 0 "Transport Agent", ["transportAgent"]),
   (publicV, ["getId", "getHome"])]

/-- The permission maps of the services (examples/sandbox_security.py:147-157) and their
registration (examples/sandbox_security.py:164-167). -/
def serviceSecurity : String → List (Val × List Name)
  | "TimeService" => [(.str 0 "Access Time Services", ["getTime"])]
  | "HomeDiscoveryService" => [(.str 0 "Access Home Service", ["getAvailableHomes"])]
  | "AgentDiscoveryService" => [(.str 0 "Access Agent Service", ["getLocalAgents"])]
  | _ => []

/-- The decision of a checker made by `PermissionMapChecker` about an attribute of an object living
in the home called `home`, with the policy of the simulation and the interaction made by
`setupAgent` (checker.py:260-279; examples/sandbox_security.py:84-105). -/
def decideSim (m : List (Val × List Name)) (home : String) (n : Name) : Sm Unit := fun s =>
  match (permissionMap m []).get? n with
  | none => (.error (.forbidden n), s)
  | some p =>
    if p = publicV then (.ok (), s)
    else
      match s.acting with
      | none => (.error (.attribute "interaction"), s)
      | some a =>
        match p with
        | .str _ perm =>
          match sandboxCheck "All" simulationDb home [(s.agents a).token] perm with
          | .ok true => (.ok (), s)
          | .ok false => (.error (.unauthorized p), s)
          | _ => (.error .policy, s)
        | _ => (.error (.unauthorized p), s)

/-- Getting and calling a method of a sandbox.  The method is proxied too, but calling it is public
(checker.py:729, 880). -/
def through {α : Type} (r : Ref) (n : Name) (body : Sm α) : Sm α := do
  if r.proxied then
    let id ← read fun s => (s.boxes r.box).id
    decideSim sandboxSecurity id n
  body

/-- `Sandbox.addAgent` (examples/sandbox.py:144-150), and the one `wire_security` puts in its place
(examples/sandbox_security.py:169-179), where the agent is given a proxied home. -/
def addAgent (b a : Nat) : Sm Unit := do
  let s ← read id
  let ag := s.agents a
  if (s.boxes b).agents.mem ag.id then raise .sandbox
  else
    change fun s => { s with boxes := fun k => if k = b then { s.boxes b with agents := (s.boxes b).agents.set ag.id a } else s.boxes k }
    change fun s => { s with agents := fun k => if k = a then { s.agents a with home := some ⟨b, s.secured⟩ } else s.agents k }

/-- `Sandbox.transportAgent` (examples/sandbox.py:161-170).  `destination is not self` compares
references: a proxied destination is never the sandbox itself. -/
def transportAgent (b a : Nat) (d : Ref) : Sm Unit := do
  let s ← read id
  let ag := s.agents a
  if (s.boxes b).agents.mem ag.id ∧ d ≠ ⟨b, false⟩ then
    through d "addAgent" (addAgent d.box a)
    change fun s => { s with boxes := fun k => if k = b then { s.boxes b with agents := (s.boxes b).agents.del ag.id } else s.boxes k }
  else raise .sandbox

/-- `Sandbox.getService` (examples/sandbox.py:138-139) through a reference, and a method of the service
called through what it gave: a proxied sandbox gives a proxied service. -/
def onService {α : Type} (r : Ref) (sid : String) (n : Name) (body : Sm α) : Sm α := do
  let found ← through r "getService" (read fun s => decide (sid ∈ (s.boxes r.box).services))
  if found then
    if r.proxied then
      let id ← read fun s => (s.boxes r.box).id
      decideSim (serviceSecurity sid) id n
    body
  else raise (.attribute n)

/-- The actions (examples/sandbox.py:219-231) and the services (examples/sandbox.py:185-209). -/
def deedOf (d : Deed) (r : Ref) : Sm Answer :=
  match d with
  | .findHomes => onService r "HomeDiscoveryService" "getAvailableHomes" (read fun s => .ids s.homes.keys)
  | .findNeighbors => onService r "AgentDiscoveryService" "getLocalAgents"
      (through r "getAgents" (read fun s => .agents ((s.boxes r.box).agents.map Prod.snd)))
  | .findTime => onService r "TimeService" "getTime" (read fun _ => .time)

/-- `Agent.action` (examples/sandbox.py:98-100). -/
def act (a : Nat) : Sm Answer := do
  let ag ← read fun s => s.agents a
  match ag.home with
  | none => raise (.attribute "getService")
  | some r => deedOf ag.deed r

/-- `TimeGenerator.setupAgent` (examples/sandbox.py:243-244; examples/sandbox_security.py:181-184). -/
def setupAgent (a : Nat) : Sm Unit := do
  let s ← read id
  if s.secured then
    if s.acting.isSome then raise .assertion
    else change fun s => { s with acting := some a }

/-- `TimeGenerator.teardownAgent` (examples/sandbox.py:246-247; examples/sandbox_security.py:186-189). -/
def teardownAgent : Sm Unit := do
  let s ← read id
  if s.secured then change fun s => { s with acting := none }

/-- `home.transportAgent(a, d)` for `home = c.getHome()` (examples/sandbox.py:272, 274).  In the
simulation agents move themselves only; the code of an agent may do this with others, too. -/
def sendFrom (c a : Nat) (d : Ref) : Sm Unit := do
  let ag ← read fun s => s.agents c
  match ag.home with
  | none => raise (.attribute "transportAgent")
  | some r => through r "transportAgent" (transportAgent r.box a d)

/-- `GreenerPastures` (examples/sandbox.py:290-295; examples/sandbox_security.py:191-200): in
Python 3 `_homes.keys()` has no `remove`. -/
def greenerPastures (_ : Nat) : Sm Ref := raise (.attribute "remove")

/-- The first loop of `turn` (examples/sandbox.py:254-265). -/
def actAll : List Nat → Sm Unit
  | [] => pure ()
  | a :: as => do
    setupAgent a
    attempt (do let _ ← act a) (fun _ => pure ())
    teardownAgent
    actAll as

/-- The body of the `try` statement for moving, with its handler (examples/sandbox.py:271-280).
`bound` is the value of the variable `new_home`, which the handler uses. -/
def relocate (greener : Nat → Sm Ref) (a : Nat) (bound : Option Ref) : Sm (Option Ref) := fun s =>
  match greener a s with
  | (.error _, s') => if bound.isSome then (.ok bound, s') else (.error .unboundLocal, s')
  | (.ok r, s') => (attempt (sendFrom a a r) (fun _ => pure ()) >>= fun _ => pure (some r)) s'

/-- The second loop of `turn` (examples/sandbox.py:267-281) for sandbox `b`: `filter` is lazy and
`agents` a view of the dictionary, which had `size` entries when the loop began. -/
def moveAll (greener : Nat → Sm Ref) (wander : Nat → Nat → Bool) (b size : Nat) : List Nat → Option Ref → Sm (Option Ref)
  | [], bound => do
    let s ← read id
    if (s.boxes b).agents.length ≠ size then raise .runtime else pure bound
  | a :: as, bound => do
    let s ← read id
    if (s.boxes b).agents.length ≠ size then raise .runtime
    else if wander b a then
      setupAgent a
      let bound ← relocate greener a bound
      teardownAgent
      moveAll greener wander b size as bound
    else moveAll greener wander b size as bound

/-- The loop over the homes in `turn` (examples/sandbox.py:253-281). -/
def turnHomes (greener : Nat → Sm Ref) (wander : Nat → Nat → Bool) : List Nat → Option Ref → Sm Unit
  | [], _ => pure ()
  | b :: bs, bound => do
    let l ← read fun s => (s.boxes b).agents.map Prod.snd
    actAll l
    let bound ← moveAll greener wander b l.length l bound
    turnHomes greener wander bs bound

/-- `TimeGenerator.turn` (examples/sandbox.py:249-281).  `wander b a` is what `WanderLust`
(examples/sandbox.py:284-287) says when asked about the agent in the loop for sandbox `b`. -/
def turn (greener : Nat → Sm Ref) (wander : Nat → Nat → Bool) : Sm Unit := do
  let bs ← read fun s => s.homes.map Prod.snd
  turnHomes greener wander bs none

/-- The agents of examples/sandbox.py:315-322 before they are added; numbers from 6 on stand for agents
that may be made later. -/
def bootAgents : Nat → Agent
  | 0 => ⟨"odin", "norse legend", none, .findTime⟩
  | 1 => ⟨"loki", "norse legend", none, .findNeighbors⟩
  | 2 => ⟨"thor", "norse legend", none, .findHomes⟩
  | 3 => ⟨"thucydides", "greek men", none, .findTime⟩
  | 4 => ⟨"archimedes", "greek men", none, .findNeighbors⟩
  | 5 => ⟨"prometheus", "greek men", none, .findHomes⟩
  | n => ⟨String.ofList (List.replicate (n + 20) 'x'), "stranger", none, .findTime⟩

/-- The sandboxes of examples/sandbox.py:303-307, with the services of examples/sandbox.py:212-216. -/
def bootBoxes : Nat → Box
  | 0 => ⟨"jail", [], ["HomeDiscoveryService", "AgentDiscoveryService", "TimeService"]⟩
  | 1 => ⟨"origin", [], ["HomeDiscoveryService", "AgentDiscoveryService", "TimeService"]⟩
  | _ => ⟨"valhalla", [], ["HomeDiscoveryService", "AgentDiscoveryService", "TimeService"]⟩

/-- The state when the module has been executed up to examples/sandbox.py:322. -/
def bootStart : Sim := ⟨bootAgents, bootBoxes, [("jail", 0), ("origin", 1), ("valhalla", 2)], false, none⟩

/-- `for a in agents: origin.addAgent(a)` (examples/sandbox.py:324-325). -/
def bootAdd : List Nat → Sm Unit
  | [] => pure ()
  | a :: as => do
    addAgent 1 a
    bootAdd as

/-- The state when `sandbox` has been imported and, perhaps, `wire_security` called
(examples/sandbox_security.py:160-200): the agents at the origin have been added before. -/
def boot (secured : Bool) : Sim := { (bootAdd [0, 1, 2, 3, 4, 5] bootStart).2 with secured := secured }

end ZS
