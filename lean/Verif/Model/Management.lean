import Verif.Model.Policy

/-!
# Interaction and policy management (management.py)
-/

namespace ZS
variable {A : Type}

/-- Write the thread-local slots of the current thread. -/
def setSlots (t : Nat) (f : Slots → Slots) : M A Unit :=
  M.modify fun s => { s with threads := fun u => if u = t then f (s.threads t) else s.threads u }

/-- `getSecurityPolicy` (management.py:56-58). -/
def getSecurityPolicy : M A Policy := do
  let s ← M.get
  pure s.policy

/-- `setSecurityPolicy` (management.py:61-72). -/
def setSecurityPolicy (p : Policy) : M A Policy := do
  let s ← M.get
  M.modify fun s => { s with policy := p }
  pure s.policy

/-- `management._clear` (management.py:162-164). -/
def clearPolicy : M A Unit := M.modify fun s => { s with policy := .paranoid }

/-- `queryInteraction` (management.py:79-81). -/
def queryInteraction (X : Ctx A) : M A Val := do
  let s ← M.get
  pure ((s.threads X.tid).interaction.getD .none)

/-- `getInteraction` (management.py:84-89). -/
def getInteraction (X : Ctx A) : M A Val := do
  let s ← M.get
  match (s.threads X.tid).interaction with
  | some v => pure v
  | none => M.throw .noInteraction

/-- Calling the policy: a built-in class, or foreign code given the participations. -/
def callPolicy (X : Ctx A) (p : Policy) (ps : List Nat) : M A Val :=
  match p with
  | .paranoid => newIx false ps
  | .permissive => newIx true ps
  | .custom f => probe X (.call f (ps.map fun n => .obj n))

/-- `newInteraction` (management.py:101-106). -/
def newInteraction (X : Ctx A) (ps : List Nat) : M A Unit := do
  let q ← queryInteraction X
  if q ≠ .none then M.throw .existingInteraction
  else do
    let p ← getSecurityPolicy
    let ix ← callPolicy X p ps
    setSlots X.tid fun sl => { sl with interaction := some ix }

/-- `endInteraction` (management.py:109-123). -/
def endInteraction (X : Ctx A) : M A Unit := do
  let s ← M.get
  match (s.threads X.tid).interaction with
  | some v => do
    setSlots X.tid fun sl => { sl with previous := some v }
    setSlots X.tid fun sl => { sl with interaction := none }
  | none => setSlots X.tid fun sl => { sl with previous := none }

/-- `restoreInteraction` (management.py:126-135). -/
def restoreInteraction (X : Ctx A) : M A Unit := do
  let s ← M.get
  match (s.threads X.tid).previous with
  | some v => setSlots X.tid fun sl => { sl with interaction := some v }
  | none => setSlots X.tid fun sl => { sl with interaction := none }

/-- `management.checkPermission` (management.py:138-159). -/
def checkPermission (X : Ctx A) (perm obj interaction : Val) : M A Val :=
  if perm = publicV ∨ perm = .none then pure (.bool true)
  else if interaction = .none then do
    let s ← M.get
    match (s.threads X.tid).interaction with
    | some ix => ixCheckPermission X ix perm obj
    | none => M.throw .noInteraction
  else ixCheckPermission X interaction perm obj

end ZS
