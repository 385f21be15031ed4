import Verif.Model.File
import Mathlib.Data.List.Basic

/-!
# Resolving conflicts does not depend on what actions are made of

`resolveWith` is `resolveConflicts` of `Model/File.lean` for actions of any kind of which the discriminator, the
order and the include path are known.
-/

namespace ZS.Props
open ZS
variable {α δ : Type} [DecidableEq δ]

section
variable (disc : α → Option δ) (order : α → Nat) (path : α → List String)

/-- As `byPath`. -/
def pathOrder (a b : α × Nat) : Bool :=
  if path a.1 = path b.1 then
    if order a.1 = order b.1 then decide (a.2 ≤ b.2) else decide (order a.1 < order b.1)
  else pathLe (path a.1) (path b.1)

/-- As `byOrder`. -/
def plainOrder (a b : α × Nat) : Bool :=
  if order a.1 = order b.1 then decide (a.2 ≤ b.2) else decide (order a.1 < order b.1)

/-- As `resolveGroup`. -/
def groupWith (group : List (α × Nat)) : Option (α × Nat) :=
  match sortBy (pathOrder order path) group with
  | [] => none
  | base :: rest =>
    if rest.any fun a => !((path base.1).isPrefixOf (path a.1)) || path a.1 == path base.1 then none
    else some base

/-- As `discriminators`. -/
def discsWith : List α → List δ
  | [] => []
  | a :: r =>
    match disc a with
    | some d => d :: (discsWith r).filter (· ≠ d)
    | none => discsWith r

/-- As `resolveGroups`. -/
def groupsWith (infos : List (α × Nat)) : List δ → Option (List (α × Nat))
  | [] => some []
  | d :: r =>
    match groupWith order path (infos.filter fun a => disc a.1 = some d), groupsWith infos r with
    | some base, some l => some (base :: l)
    | _, _ => none

/-- As `resolveConflicts`. -/
def resolveWith (actions : List α) : Option (List α) :=
  match groupsWith disc order path actions.zipIdx (discsWith disc actions) with
  | some l => some ((sortBy (plainOrder order) (actions.zipIdx.filter (fun a => disc a.1 = none) ++ l)).map (·.1))
  | none => none
end

theorem insertBy_map {γ : Type} {le : α → α → Bool} {le' : γ → γ → Bool} (G : γ → α) (h : ∀ a b, le (G a) (G b) = le' a b) (x : γ) (l : List γ) :
    insertBy le (G x) (l.map G) = (insertBy le' x l).map G := by
  induction l with
  | nil => rfl
  | cons y r ih =>
    rw [List.map_cons]
    unfold insertBy
    rw [h]
    split
    · rfl
    · rw [ih]; rfl

theorem sortBy_map {γ : Type} {le : α → α → Bool} {le' : γ → γ → Bool} (G : γ → α) (h : ∀ a b, le (G a) (G b) = le' a b) (l : List γ) :
    sortBy le (l.map G) = (sortBy le' l).map G := by
  induction l with
  | nil => rfl
  | cons y r ih =>
    rw [List.map_cons]
    unfold sortBy
    rw [ih, insertBy_map G h]

/-- Conflicts are resolved in the same way whatever the actions and the discriminators are, if equal discriminators correspond to equal ones. -/
theorem resolve_map {γ ε : Type} [DecidableEq ε] (disc : α → Option δ) (order : α → Nat) (path : α → List String)
    (disc' : γ → Option ε) (order' : γ → Nat) (path' : γ → List String) (g : γ → α) (enc : ε → δ) (hi : Function.Injective enc)
    (hd : ∀ c, disc (g c) = (disc' c).map enc) (ho : ∀ c, order (g c) = order' c) (hp : ∀ c, path (g c) = path' c) (l : List γ) :
    resolveWith disc order path (l.map g) = (resolveWith disc' order' path' l).map (List.map g) := by
  let G : γ × Nat → α × Nat := fun c => (g c.1, c.2)
  have hz : (l.map g).zipIdx = l.zipIdx.map G := by
    rw [List.zipIdx_map]; rfl
  have hP : ∀ a b, pathOrder order path (G a) (G b) = pathOrder order' path' a b := by
    intro a b; unfold pathOrder; simp only [G, ho, hp]
  have hO : ∀ a b, plainOrder order (G a) (G b) = plainOrder order' a b := by
    intro a b; unfold plainOrder; simp only [G, ho]
  have hG : ∀ grp, groupWith order path (grp.map G) = (groupWith order' path' grp).map G := by
    intro grp
    unfold groupWith
    rw [sortBy_map G hP]
    cases sortBy (pathOrder order' path') grp with
    | nil => rfl
    | cons b r =>
      rw [List.map_cons]
      simp only [List.any_map, Function.comp_def, G, hp]
      split <;> rfl
  have hdisc : discsWith disc (l.map g) = (discsWith disc' l).map enc := by
    clear hz
    induction l with
    | nil => rfl
    | cons a r ih =>
      rw [List.map_cons]
      unfold discsWith
      rw [hd a, ih]
      cases disc' a with
      | none => rfl
      | some d =>
        simp only [Option.map_some, List.map_cons, List.filter_map, Function.comp_def, ne_eq, hi.eq_iff]
  have hF : ∀ d, (l.zipIdx.map G).filter (fun a => disc a.1 = some (enc d)) = (l.zipIdx.filter fun a => disc' a.1 = some d).map G := by
    intro d
    rw [List.filter_map]
    congr 1
    apply List.filter_congr
    intro a _
    simp only [Function.comp_def, G, hd, Option.map_eq_some_iff, hi.eq_iff, exists_eq_right]
  have hN : (l.zipIdx.map G).filter (fun a => disc a.1 = none) = (l.zipIdx.filter fun a => disc' a.1 = none).map G := by
    rw [List.filter_map]
    congr 1
    apply List.filter_congr
    intro a _
    simp only [Function.comp_def, G, hd, Option.map_eq_none_iff]
  have hGs : ∀ ds, groupsWith disc order path (l.zipIdx.map G) (ds.map enc)
      = (groupsWith disc' order' path' l.zipIdx ds).map (List.map G) := by
    intro ds
    induction ds with
    | nil => rfl
    | cons d r ih =>
      rw [List.map_cons]
      unfold groupsWith
      rw [hF, hG, ih]
      cases groupWith order' path' (l.zipIdx.filter fun a => disc' a.1 = some d) <;>
        cases groupsWith disc' order' path' l.zipIdx r <;> rfl
  unfold resolveWith
  rw [hz, hdisc, hGs, hN]
  cases groupsWith disc' order' path' l.zipIdx (discsWith disc' l) with
  | none => rfl
  | some q =>
    simp only [Option.map_some]
    rw [← List.map_append, sortBy_map G hO, List.map_map, List.map_map]
    rfl

theorem resolve_eq (l : List FAction) : resolveConflicts l = resolveWith FAction.disc FAction.order FAction.path l := by
  have hO : byOrder = plainOrder FAction.order := by
    funext a b; rfl
  have hP : byPath = pathOrder FAction.order FAction.path := by
    funext a b; rfl
  have hG : resolveGroup = groupWith FAction.order FAction.path := by
    funext g
    unfold resolveGroup groupWith
    rw [hP]
    cases sortBy (pathOrder FAction.order FAction.path) g <;> rfl
  have hd : ∀ l, discriminators l = discsWith FAction.disc l := by
    intro l
    induction l with
    | nil => rfl
    | cons a r ih =>
      unfold discriminators discsWith
      rw [ih]
      cases a.disc <;> rfl
  have hg : ∀ i ds, resolveGroups i ds = groupsWith FAction.disc FAction.order FAction.path i ds := by
    intro i ds
    induction ds with
    | nil => rfl
    | cons d r ih =>
      unfold resolveGroups groupsWith
      rw [ih, hG]
      cases groupWith FAction.order FAction.path (i.filter fun a => a.1.disc = some d) <;>
        cases groupsWith FAction.disc FAction.order FAction.path i r <;> rfl
  unfold resolveConflicts resolveWith
  simp only
  rw [hd, hg, hO]
  cases groupsWith FAction.disc FAction.order FAction.path l.zipIdx (discsWith FAction.disc l) <;> rfl

end ZS.Props
