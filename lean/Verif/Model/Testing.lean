import Verif.Model.Management

/-!
# Interactions for tests (testing.py)
-/

namespace ZS
variable {A : Type}

/-- `Participation(principal)` (testing.py:51-53): a new object that belongs to no interaction. -/
def newParticipation (pr : Principal) : M A Nat := do
  let s ← M.get
  M.modify fun s => { s with
    nextId := s.nextId + 1
    parts := fun q => if q = s.nextId then ⟨pr, .none⟩ else s.parts q }
  pure s.nextId

/-- `create_interaction` (testing.py:77-87).  The principal is a new object, so it is never
`system_user`, whatever its id. -/
def createInteraction (X : Ctx A) (principalId : String) : M A Principal := do
  let p ← newParticipation (.user principalId)
  newInteraction X [p]
  pure (.user principalId)

/-- `try: x finally: fin`, where `fin` does not fail. -/
def tryFinally (x : M A Val) (fin : M A Unit) : M A Val := fun s =>
  match x s with
  | (.ok v, s1) => (do fin; pure v : M A Val) s1
  | (.err e, s1) => (do fin; M.throw e : M A Val) s1
  | (.diverge, s1) => (.diverge, s1)

/-- `with interaction(principal_id) as p: body` (testing.py:90-104), the body being given what the
context manager yields. -/
def interactionCtx (X : Ctx A) (principalId : String) (body : Option Principal → M A Val) : M A Val := do
  let q ← queryInteraction X
  if truthy X.W q then body none
  else do
    let pr ← createInteraction X principalId
    tryFinally (body (some pr)) (endInteraction X)

end ZS
