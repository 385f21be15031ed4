import Verif.Model.State

/-!
# Permissions as utilities (permission.py)

zope.component is represented by the list of registered permission utilities visible from a context,
as `getUtilitiesFor(IPermission, context)` gives them: name and object.  zope.schema's
`SimpleVocabulary` is represented by the terms it accepts; it raises `ValueError` for two terms with
the same value or the same token.  `esc` is the escaping that `SimpleTerm` applies to tokens.
-/

namespace ZS

/-- What may be given as a permission id: the object `CheckerPublic` or a string. -/
inductive PermId where
  | checkerPublic
  | id (s : String)
  deriving DecidableEq, Repr

/-- The registered permission utilities: name and object. -/
abbrev Utilities := List (String × Nat)

/-- `queryUtility(IPermission, name, context=context)`. -/
def queryUtility (us : Utilities) (name : String) : Option Nat := List.lookup name us

/-- `permission.checkPermission` (permission.py:45-53); `truth` is the truth value of a permission object. -/
def checkPermissionDefined (us : Utilities) (truth : Nat → Bool) (p : PermId) : Res Unit :=
  match p with
  | .checkerPublic => .ok ()
  | .id n =>
    match queryUtility us n with
    | some u => if truth u then .ok () else .err .valueError
    | none => .err .valueError

/-- `allPermissions` (permission.py:56-62). -/
def allPermissions : Utilities → List String
  | [] => []
  | (name, _) :: r => if name ≠ zopePublic then name :: allPermissions r else allPermissions r

/-- A `SimpleTerm`. -/
structure Term (V : Type) where
  value : V
  token : String
  title : String
  deriving DecidableEq, Repr

/-- `SimpleVocabulary(terms)`: the terms in order, values and tokens being unique. -/
def simpleVocabulary {V : Type} [DecidableEq V] (terms : List (Term V)) : Res (List (Term V)) :=
  if (terms.map (·.value)).Nodup ∧ (terms.map (·.token)).Nodup then .ok terms else .err .valueError

/-- `PermissionsVocabulary` (permission.py:65-74); no titles are given. -/
def permissionsVocabulary (esc : String → String) (us : Utilities) : Res (List (Term Nat)) :=
  simpleVocabulary (us.map fun u => ⟨u.2, esc u.1, ""⟩)

/-- The loop of `PermissionIdsVocabulary` (permission.py:97-103). -/
def idTerms (esc : String → String) : Utilities → List (Term PermId) × Bool
  | [] => ([], false)
  | (name, _) :: r =>
    if name = zopePublic then ((idTerms esc r).1, true)
    else (⟨.id name, esc name, name⟩ :: (idTerms esc r).1, (idTerms esc r).2)

/-- `PermissionIdsVocabulary` (permission.py:80-107). -/
def permissionIdsVocabulary (esc : String → String) (us : Utilities) : Res (List (Term PermId)) :=
  let terms := (idTerms esc us).1.mergeSort fun a b => decide (a.title ≤ b.title)
  simpleVocabulary (if (idTerms esc us).2 then ⟨.checkerPublic, esc zopePublic, "Public"⟩ :: terms else terms)

end ZS
