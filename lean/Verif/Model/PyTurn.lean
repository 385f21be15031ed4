import Verif.Model.PySimulation

/-!
# What the names mean in a turn of the simulation in which nobody wants to move

`WanderLust` asks a random number; here it says no, so `filter` gives nothing.  The views that `values` gives are lists made when asked for: what agents do does
not change them.
-/

namespace ZS.PyC
open ZS

def turnGlob (n : Name) : M Sim PV :=
  if n = "_homes" ∨ n = "Exception" ∨ n = "print" ∨ n = "filter" ∨ n = "WanderLust" then pure (.sym n) else stuck

/-- `a._action.__name__`, for the text printed. -/
def turnGetattr (o : PV) (n : Name) : M Sim PV :=
  match o with
  | .part a => if n = "_action" then pure (.bound (.part a) n) else stuck
  | .bound (.part _) _ => if n = "__name__" then pure (textV "") else stuck
  | _ => stuck

/-- `filter(WanderLust, agents)` when nobody wants to move, and `print`. -/
def turnCall (f : PV) (args : List PV) (_ : List (Name × PV)) : M Sim PV :=
  match f with
  | .sym f =>
    if f = "print" then pure (.v .none)
    else
      (match args with
      | [.sym g, .bound (.list _) _] => if f = "filter" ∧ g = "WanderLust" then pure (.list []) else stuck
      | _ => stuck)
  | _ => stuck

def turnIter (x : PV) : M Sim (List PV) :=
  match x with
  | .list l => pure l
  | .bound (.list l) _ => pure l
  | _ => stuck

/-- The methods of the generator are those of the class until `wire_security` puts its own there. -/
def turnMethod (o : PV) (m : Name) (args : List PV) (kws : List (Name × PV)) : M Sim PV :=
  match o with
  | .sym o =>
    if o = "self" then
      (if m = "setupAgent" then (do
        let s ← M.get
        if s.app.secured then runIn simLang3 Src.SandboxSecurity.wire_security.setupAgent [] (.sym o :: args) kws
        else runIn simLang3 Src.Sandbox.TimeGenerator.setupAgent [] (.sym o :: args) kws)
      else if m = "teardownAgent" then (do
        let s ← M.get
        if s.app.secured then runIn simLang3 Src.SandboxSecurity.wire_security.teardownAgent [] (.sym o :: args) kws
        else runIn simLang3 Src.Sandbox.TimeGenerator.teardownAgent [] (.sym o :: args) kws)
      else stuck)
    else if o = "_homes" then (if m = "values" then (do let s ← M.get; pure (viewV (s.app.homes.map fun p => boxV ⟨p.2, false⟩))) else stuck)
    else stuck
  | .part a => if m = "action" then runIn simLang4 Src.Sandbox.Agent.action [] (agentV a :: args) kws else stuck
  | .slice x y => smMethod2 (.slice x y) m args kws
  | _ => stuck

def turnLang : Lang Sim :=
  { simLang0 with
    glob := turnGlob
    getattr := turnGetattr
    call := turnCall
    iter := turnIter
    method := turnMethod
    catches := fun _ _ => true }

end ZS.PyC
