import Verif.Model.Checker

/-!
# The sandbox example (examples/sandbox_security.py)

Modelled from the point where the id of the object's home is known: `object.getHome().getId()` is
application code.  Permissions are any type with equality; authentication tokens are strings.
-/

namespace ZS
variable {A P : Type}

/-- What `getattr(SimulationSecurityDatabase, id, None)` may give: nothing, a mapping of tokens to
permissions, or another attribute of the class, such as its docstring. -/
inductive DbAttr (P : Type) where
  | missing
  | table (t : String → Option (List P))
  | other

/-- `SimulationSecurityPolicy.checkPermission` (examples/sandbox_security.py:84-105).  `ALL` is the
permission listed for unrestricted homes, `tokens` are the authentication tokens of the participations. -/
def sandboxCheck [DecidableEq P] (ALL : P) (db : String → DbAttr P) (home : String) (tokens : List String) (perm : P) : Res Bool :=
  match db home with
  | .missing => .ok false
  | .other => .err (.attributeError "get")
  | .table t =>
    let allowed := (t "any").getD []
    if perm ∈ allowed ∨ ALL ∈ allowed then .ok true
    else if tokens.isEmpty then .ok false
    else .ok (tokens.all fun token => decide (perm ∈ (t token).getD []))

/-- The inner loop of `PermissionMapChecker` (examples/sandbox_security.py:127-129). -/
def listMethods (perm : Val) : List Name → PyDict Name Val → PyDict Name Val
  | [], d => d
  | m :: ms, d => listMethods perm ms (d.set m perm)

/-- The loops of `PermissionMapChecker` over `permissions_map.items()`
(examples/sandbox_security.py:126-129). -/
def permissionMap : List (Val × List Name) → PyDict Name Val → PyDict Name Val
  | [], d => d
  | (p, ms) :: r, d => permissionMap r (listMethods p ms d)

/-- `PermissionMapChecker` (examples/sandbox_security.py:120-130). -/
def permissionMapChecker (m : List (Val × List Name)) (set : PyDict Name Val) : M A Val := do
  let g ← newDict (permissionMap m [])
  let st ← newDict set
  newChecker g st

/-- The tables of `SimulationSecurityDatabase` (examples/sandbox_security.py:61-75); other homes are
taken to be missing. -/
def simulationDb : String → DbAttr String
  | "origin" => .table fun
    | "any" => some ["All"]
    | _ => none
  | "jail" => .table fun
    | "norse legend" => some ["Transport Agent", "Access Services", "Access Agent Service", "Access Home Service",
        "Transport Agent", "Access Agents"]
    | "any" => some ["Access Time Services", "Add Agent"]
    | _ => none
  | "valhalla" => .table fun
    | "norse legend" => some ["Add Agent"]
    | "any" => some ["Access Services", "Access Time Services", "Access Agent Service", "Access Home Service",
        "Transport Agent", "Access Agents"]
    | _ => none
  | _ => .missing

end ZS
