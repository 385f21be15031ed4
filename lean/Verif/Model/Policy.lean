import Verif.Model.Run

/-!
# Built-in policies and asking the interaction

Models simplepolicies.py and the `thread_local.interaction.checkPermission(...)` expression of
the checkers.
-/

namespace ZS
variable {A : Type}

/-- `ParanoidSecurityPolicy.checkPermission` (simplepolicies.py:60-68). -/
def paranoidCheck (s : St A) (i : Nat) (perm : Val) : Bool :=
  if perm = publicV then true
  else
    let users := ((s.ixs i).participations.map fun p => (s.parts p).principal).filter
      (fun q => decide (q ≠ .system))
    users.isEmpty

/-- `interaction.checkPermission(perm, obj)`: a built-in policy (simplepolicies.py:60-68 and
76-78) or foreign code. -/
def ixCheckPermission (X : Ctx A) (ix perm obj : Val) : M A Val :=
  match ix with
  | .ix i => do
    let s ← M.get
    if (s.ixs i).permissive then pure (.bool true)
    else pure (.bool (paranoidCheck s i perm))
  | v => probe X (.method v "checkPermission" [perm, obj])

/-- `thread_local.interaction.checkPermission(perm, obj)` as a condition (checker.py:251 and
:266; checkPermission in _zope_security_checker.c:100-122).  A missing interaction is an
`AttributeError` of the thread-local object. -/
def askInteraction (X : Ctx A) (perm obj : Val) : M A Bool := do
  let s ← M.get
  match (s.threads X.tid).interaction with
  | none => M.throw (.attributeError "interaction")
  | some ix => do
    let r ← ixCheckPermission X ix perm obj
    pure (truthy X.W r)

/-- `ParanoidSecurityPolicy.add` (simplepolicies.py:46-51). -/
def ixAdd (i p : Nat) : M A Unit := do
  let s ← M.get
  if (s.parts p).interaction ≠ .none then M.throw .valueError
  else do
    M.modify fun s => { s with parts := fun q => if q = p then { s.parts p with interaction := .ix i } else s.parts q }
    M.modify fun s => { s with ixs := fun j => if j = i then { s.ixs i with participations := (s.ixs i).participations ++ [p] } else s.ixs j }

/-- `ParanoidSecurityPolicy.remove` (simplepolicies.py:53-58).  `list.remove` raises
`ValueError` when the element is missing; participations are compared by identity. -/
def ixRemove (i p : Nat) : M A Unit := do
  let s ← M.get
  if (s.parts p).interaction ≠ .ix i then M.throw .valueError
  else if p ∉ (s.ixs i).participations then M.throw .valueError
  else do
    M.modify fun s => { s with ixs := fun j => if j = i then { s.ixs i with participations := (s.ixs i).participations.erase p } else s.ixs j }
    M.modify fun s => { s with parts := fun q => if q = p then { s.parts p with interaction := .none } else s.parts q }

/-- The loop of `ParanoidSecurityPolicy.__init__` (simplepolicies.py:43-44). -/
def ixAddAll (i : Nat) : List Nat → M A Unit
  | [] => pure ()
  | p :: ps => do
    ixAdd i p
    ixAddAll i ps

/-- Calling a built-in policy class (simplepolicies.py:41-44): a new interaction to which the
participations are added one after the other. -/
def newIx (permissive : Bool) (ps : List Nat) : M A Val := do
  let s ← M.get
  let i := s.nextId
  M.modify fun s => { s with nextId := s.nextId + 1, ixs := fun j => if j = i then ⟨permissive, []⟩ else s.ixs j }
  ixAddAll i ps
  pure (.ix i)

end ZS
