import Verif.Model.Registry

/-!
# Declarations: protectclass.py and `metaconfigure.protectModule`
-/

namespace ZS
variable {A : Type}

/-- `checker = getCheckerForInstancesOf(class_); if checker is None: checker = Checker({}, {});
defineChecker(class_, checker)` (protectclass.py:27-30, 43-46, 80-83; metaconfigure.py:186-189). -/
def getOrCreate (t : Val) : M A Val :=
  match definable t with
  | none => M.throw .typeError
  | some k => do
    let s ← M.get
    let c := getCheckerFor s k
    if c = .none then do
      let g ← newDict []
      let st ← newDict []
      let c ← newChecker g st
      defineChecker t c
      pure c
    else pure c

/-- `protections[name] = permission` on a dictionary of the heap. -/
def dictSet (d : Nat) (n : Name) (p : Val) : M A Unit :=
  M.modify fun s => { s with dicts := fun k => if k = d then (s.dicts d).set n p else s.dicts k }

/-- `if permission == zope_Public: permission = CheckerPublic` (protectclass.py:32-34, 48-50):
equality, not identity. -/
def translate (p : Val) : Val :=
  match p with
  | .str _ s => if s = zopePublic then publicV else p
  | p => p

/-- `protectName` (protectclass.py:24-38) and `protectModule` (metaconfigure.py:180-197). -/
def protectName (t : Val) (n : Name) (p : Val) : M A Unit := do
  let c ← getOrCreate t
  match checkerDicts c with
  | some (g, _) => dictSet g n (translate p)
  | none => M.throw (.attributeError "get_permissions")

/-- `protectSetAttribute` (protectclass.py:41-60). -/
def protectSetAttribute (t : Val) (n : Name) (p : Val) : M A Unit := do
  let c ← getOrCreate t
  match checkerDicts c with
  | some (_, st) => dictSet st n (translate p)
  | none => M.throw (.attributeError "set_permissions")

/-- The loop `for name in src: dst[name] = src[name]` (protectclass.py:86-87, 90-91). -/
def copyNames (src dst : Nat) : List Name → M A Unit
  | [] => pure ()
  | n :: r => do
    let s ← M.get
    match (s.dicts src).get? n with
    | some p => do
      dictSet dst n p
      copyNames src dst r
    | none => M.throw .keyError

/-- The same with the names taken from `src` (only existing keys can be rewritten while they are
iterated over, so the iteration sees each of them once). -/
def copyDict (src dst : Nat) : M A Unit := do
  let s ← M.get
  copyNames src dst (s.dicts src).keys

/-- The second half of `protectLikeUnto` (protectclass.py:80-91): the class gets the entries of
the dictionaries `ug` and `us`. -/
def likeCopy (t : Val) (ug us : Nat) : M A Unit := do
  let c ← getOrCreate t
  match checkerDicts c with
  | none => M.throw (.attributeError "get_permissions")
  | some (g, st) => do
    copyDict ug g
    copyDict us st

/-- `protectLikeUnto` after the lookup of the other class's checker (protectclass.py:66-78). -/
def likeFrom (t uc : Val) : M A Unit :=
  if uc = .none then pure ()
  else match checkerDicts uc with
    | none => M.throw (.attributeError "get_permissions")
    | some (ug, us) => likeCopy t ug us

/-- `protectLikeUnto` (protectclass.py:63-91). -/
def protectLikeUnto (t like : Val) : M A Unit :=
  match definable like with
  | none => pure ()
  | some kl => do
    let s ← M.get
    likeFrom t (getCheckerFor s kl)

end ZS
