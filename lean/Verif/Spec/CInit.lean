import Verif.Model.CInit
import Verif.Model.Import
import Verif.Source.CFiles

/-!
# What the initialisation functions should do

In terms of what happened in a run, and of the lines of C73 (`Imp.cproxyBody`, `Imp.ccheckerBody`).
-/

namespace ZS.CI
open ZS.Imp (Line always intern)

/-- A call. -/
def isCall : Ev → Bool
  | .call _ _ _ => true
  | _ => false

/-- A call failed that the function has to notice.  (`PyModule_AddObject` is never looked at.) -/
def failing : Ev → Bool
  | .call f _ failed => failed && decide (f ≠ "PyModule_AddObject")
  | _ => false

/-- Any call failed. -/
def failed : Ev → Bool
  | .call _ _ b => b
  | _ => false

/-- When a call fails nothing more is called and NULL returned, otherwise the module. -/
def Careful (m : String) (v : V) (s : I) : Prop :=
  (∀ e ∈ (s.log.filter isCall).dropLast, failing e = false) ∧
  v = if s.log.any failing then .null else .obj (.module m "module_functions")

/-- The module a name stands for. -/
def modOf : String → Option Imp.Mod
  | "zope.security._proxy" => some .cproxy
  | "zope.security._definitions" => some .defs
  | "zope.security.interfaces" => some .interfaces
  | "zope.security.checker" => some .checker
  | _ => none

/-- The functions in the method table of a module. -/
def methodNames (m : String) : List String :=
  ((if m = "_proxy" then CS.Src.module_functions_p else CS.Src.module_functions_c).filterMap fun r =>
    match r with
    | .text n :: _ => some n
    | _ => none)

/-- The name under which Python knows a static type. -/
def typeName : String → String
  | "SecurityProxyType" => "_Proxy"
  | "CheckerType" => "Checker"
  | t => t

/-- The lines of C73 that an event amounts to. -/
def evLines : Ev → List Line
  | .assign _ (.obj (.module m _)) => (methodNames m).map fun x => always (.static x)
  | .call "Proxy_Import" _ false => [always (.work [])]
  | .call "PyType_Ready" [.obj (.type t)] false => [always (.static (typeName t))]
  | .assign x (.obj (.text t)) => [intern (x, t)]
  | .assign x (.obj (.made t _)) => [always (.new x x (if t = "CheckerType" then ["Checker"] else []))]
  | .assign _ (.obj (.imported m)) => [always (((modOf m).map Imp.Stmt.imp).getD (.work [m]))]
  | .assign x (.obj (.attr m n)) => [always (((modOf m).map fun t => Imp.Stmt.attr t n x).getD (.work [m]))]
  | _ => []

def linesOf (s : I) : List Line := s.log.flatMap evLines

/-- The objects in variables other than the local ones. -/
def statics (s : I) : List Obj :=
  (s.vars.filter fun e => decide (e.1 ∉ ["m", "mod"])).filterMap fun e =>
    match e.2 with
    | .obj o => some o
    | _ => none

/-- One reference for each static variable, and the one to the module that is returned. -/
def Balanced (m : String) (s : I) : Prop := s.own.Perm (.module m "module_functions" :: statics s)

/-- The slots assigned, and types made ready. -/
def readying (s : I) : List Ev := s.log.filter fun
  | .slot _ _ _ => true
  | .call "PyType_Ready" _ _ => true
  | _ => false

/-- What is in the module is what the static variable of that name has, or the type. -/
def Exposes (s : I) : Prop :=
  ∀ e ∈ s.exported, s.look e.1 = .obj e.2 ∨ e.2 ∈ ["SecurityProxyType", "CheckerType"].map .type ∧ ∀ t, e.2 = .type t → e.1 = typeName t

end ZS.CI
