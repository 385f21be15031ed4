import Verif.Spec.Xml
import Verif.Lemmas.PyRun

/-!
# Lemmas about arguments: schemas and parameters
-/

namespace ZS.PyC
open ZS ZS.Spec

theorem attr_lookup (n : String) (a : List (String × String)) : attr? n a = a.lookup n := by
  induction a with
  | nil => rfl
  | cons p r ih =>
    obtain ⟨k, x⟩ := p
    unfold attr?
    rw [List.lookup_cons]
    by_cases h : k = n
    · subst h; simp
    · have : (n == k) = false := by simpa using fun h' => h h'.symm
      simp only [h, if_false, this, ih]

theorem attr_filter {n m : String} (h : m ≠ n) (a : List (String × String)) : attr? m (a.filter fun p => decide (p.1 ≠ n)) = attr? m a := by
  induction a with
  | nil => rfl
  | cons p r ih =>
    obtain ⟨k, x⟩ := p
    rw [List.filter_cons]
    by_cases hk : k = n
    · subst hk
      simp only [ne_eq, not_true, decide_false, Bool.false_eq_true, if_false, ih]
      unfold attr?
      rw [if_neg fun h' => h h'.symm]
      exact (attr?.eq_def m r).symm ▸ rfl
    · simp only [ne_eq, hk, not_false_iff, decide_true, if_true]
      unfold attr?
      rw [ih]

/-! ## Arguments from attributes -/

/-- The argument for one field: none or one. -/
def pickArg (conv : SField → String → M Reading PV) (a : List (String × String)) (f : SField) : M Reading (List (Name × PV)) :=
  match attr? (attrName f.name) a with
  | some t => do
    let x ← conv f t
    pure [(f.name, x)]
  | none => if f.required then M.throw .configurationError else pure []

/-- Those for all fields. -/
def pickArgs (conv : SField → String → M Reading PV) (a : List (String × String)) : List SField → M Reading (List (Name × PV))
  | [] => pure []
  | f :: r => do
    let l ← pickArg conv a f
    let l' ← pickArgs conv a r
    pure (l ++ l')

theorem pickArgs_congr {conv : SField → String → M Reading PV} {a b : List (String × String)} : ∀ {fs : List SField},
    (∀ f ∈ fs, attr? (attrName f.name) a = attr? (attrName f.name) b) → pickArgs conv a fs = pickArgs conv b fs
  | [], _ => rfl
  | f :: r, h => by
    unfold pickArgs
    rw [pickArgs_congr fun g hg => h g (List.mem_cons_of_mem _ hg)]
    unfold pickArg
    rw [h f List.mem_cons_self]

theorem toargs_only (conv : SField → String → M Reading PV) : ∀ (fs : List SField) (a : List (String × String)),
    (∀ p ∈ a, p.1 ∈ fs.map fun f => attrName f.name) → (fs.map fun f => attrName f.name).Nodup → toargs conv fs a = pickArgs conv a fs
  | [], a, h, _ => by
    cases a with
    | nil => rfl
    | cons p r => exact absurd (h p List.mem_cons_self) (by simp)
  | f :: r, a, h, hn => by
    unfold toargs pickArgs pickArg
    rw [List.map_cons] at h hn
    have hn' := List.nodup_cons.mp hn
    cases ha : attr? (attrName f.name) a with
    | some t =>
      rw [toargs_only conv r _ ?_ hn'.2]
      · rw [pickArgs_congr (b := a) fun g hg => attr_filter (fun he => hn'.1 (by rw [← he]; exact List.mem_map.mpr ⟨g, hg, rfl⟩)) a]
        funext s
        simp only [run_bind]
        cases conv f t s with
        | mk q s' =>
          cases q with
          | ok x =>
            simp only [run_pure]
            rfl
          | err e => rfl
          | diverge => rfl
      · intro p hp
        have hp' := List.mem_filter.mp hp
        rcases List.mem_cons.mp (h p hp'.1) with hm | hm
        · exact absurd hm (by simpa using hp'.2)
        · exact hm
    | none =>
      simp only
      by_cases hr : f.required = true
      · simp only [hr, if_true]; rfl
      · simp only [hr]
        rw [toargs_only conv r a ?_ hn'.2]
        · funext s
          simp only [run_bind, run_pure, Bool.false_eq_true, if_false]
          cases pickArgs conv a r s with
          | mk q s' => cases q <;> rfl
        · intro p hp
          rcases List.mem_cons.mp (h p hp) with hm | hm
          · exfalso
            rw [attr_lookup, List.lookup_eq_none_iff] at ha
            have := ha p hp
            rw [hm] at this
            simp at this
          · exact hm

/-- An argument that may be missing. -/
def optArg (n : Name) : Option PV → List (Name × PV)
  | some x => [(n, x)]
  | none => []

theorem takeKw_append (n : Name) : ∀ (l l' : List (Name × PV)), takeKw n (l ++ l') = (takeKw n l).or (takeKw n l')
  | [], _ => rfl
  | (k, x) :: r, l' => by
    have e : ∀ l : List (Name × PV), takeKw n ((k, x) :: l) = if k = n then some x else takeKw n l := fun _ => rfl
    rw [List.cons_append, e, e, takeKw_append n r l']
    by_cases h : k = n
    · simp [h]
    · simp only [h, if_false]

theorem takeKw_opt (n m : Name) (o : Option PV) : takeKw n (optArg m o) = if m = n then o else none := by
  cases o with
  | none => simp [optArg, takeKw]
  | some x => simp [optArg, takeKw]

/-! ## Parameters from arguments -/

/-- What the parameters are bound to: keyword arguments or defaults. -/
inductive Filled (L : Lang Reading) (kws : List (Name × PV)) : List (Name × Option Expr) → List PV → Prop where
  | nil : Filled L kws [] []
  | given {n d ps x xs} : takeKw n kws = some x → Filled L kws ps xs → Filled L kws ((n, d) :: ps) (x :: xs)
  | default {n e ps x xs} : takeKw n kws = none → eval L e [] = pure x → Filled L kws ps xs → Filled L kws ((n, some e) :: ps) (x :: xs)

theorem takeKw_filter {n m : Name} (h : m ≠ n) (l : List (Name × PV)) : takeKw m (l.filter fun p => decide (p.1 ≠ n)) = takeKw m l := by
  induction l with
  | nil => rfl
  | cons p r ih =>
    obtain ⟨k, x⟩ := p
    rw [List.filter_cons]
    by_cases hk : k = n
    · subst hk
      simp only [ne_eq, not_true, decide_false, Bool.false_eq_true, if_false, ih]
      rw [show takeKw m ((k, x) :: r) = if k = m then some x else takeKw m r from rfl, if_neg fun h' => h h'.symm]
    · simp only [ne_eq, hk, not_false_iff, decide_true, if_true]
      rw [show takeKw m ((k, x) :: r) = if k = m then some x else takeKw m r from rfl, ← ih]
      rfl

theorem Filled.congr {L : Lang Reading} {kws kws' : List (Name × PV)} {ps : List (Name × Option Expr)} {xs : List PV} (h : Filled L kws ps xs)
    (he : ∀ p ∈ ps, takeKw p.1 kws' = takeKw p.1 kws) : Filled L kws' ps xs := by
  induction h with
  | nil => exact .nil
  | @given n d ps x xs h1 _ ih =>
    exact .given (by rw [← h1]; exact he (n, d) List.mem_cons_self) (ih fun p hp => he p (List.mem_cons_of_mem _ hp))
  | @default n e ps x xs h1 h2 _ ih =>
    exact .default (by rw [← h1]; exact he (n, some e) List.mem_cons_self) h2 (ih fun p hp => he p (List.mem_cons_of_mem _ hp))

theorem bind_filled (L : Lang Reading) (f : Fn) {ps : List (Name × Option Expr)} : ∀ {kws : List (Name × PV)} {xs : List PV}, Filled L kws ps xs →
    (∀ p ∈ kws, p.1 ∈ ps.map Prod.fst) → (ps.map Prod.fst).Nodup → ∀ env, bindParams L f ps [] kws env = bindParams L f ps xs [] env := by
  induction ps with
  | nil =>
    intro kws xs h hk _ env
    cases h
    cases kws with
    | nil => rfl
    | cons p r => exact absurd (hk p List.mem_cons_self) (by simp)
  | cons q ps ih =>
    intro kws xs h hk hn env
    rw [List.map_cons] at hk hn
    have hn' := List.nodup_cons.mp hn
    have hne : ∀ p ∈ ps, p.1 ≠ q.1 := fun p hp he => hn'.1 (he ▸ List.mem_map.mpr ⟨p, hp, rfl⟩)
    cases h with
    | @given n d _ x xs h1 h2 =>
      have hb : bindParams L f ((n, d) :: ps) [] kws env = bindParams L f ps [] (kws.filter fun p => decide (p.1 ≠ n)) (env.put n x) := by
        conv => lhs; unfold bindParams
        rw [h1]
      have hr : bindParams L f ((n, d) :: ps) (x :: xs) [] env = bindParams L f ps xs [] (env.put n x) := rfl
      rw [hb, hr]
      refine ih (h2.congr fun p hp => takeKw_filter (hne p hp) kws) ?_ hn'.2 _
      intro p hp
      have hp' := List.mem_filter.mp hp
      rcases List.mem_cons.mp (hk p hp'.1) with hm | hm
      · exact absurd hm (by simpa using hp'.2)
      · exact hm
    | @default n e _ x xs h1 h2 h3 =>
      have hb : bindParams L f ((n, some e) :: ps) [] kws env = bindParams L f ps [] kws (env.put n x) := by
        conv => lhs; unfold bindParams
        rw [h1]
        simp only [h2]
        rfl
      have hr : bindParams L f ((n, some e) :: ps) (x :: xs) [] env = bindParams L f ps xs [] (env.put n x) := rfl
      rw [hb, hr]
      refine ih h3 ?_ hn'.2 _
      intro p hp
      rcases List.mem_cons.mp (hk p hp) with hm | hm
      · exfalso
        have : ∀ l : List (Name × PV), p ∈ l → takeKw p.1 l ≠ none := by
          intro l
          induction l with
          | nil => intro h; cases h
          | cons r l ihl =>
            intro h
            obtain ⟨k, y⟩ := r
            unfold takeKw
            by_cases hk : k = p.1
            · simp [hk]
            · simp only [hk, if_false]
              cases h with
              | head => exact absurd rfl hk
              | tail _ h => exact ihl h
        exact this kws hp (by rw [hm]; exact h1)
      · exact hm

/-- A call with keyword arguments is the call with what the parameters are bound to. -/
theorem run_filled (L : Lang Reading) (f : Fn) (pre ps : List (Name × Option Expr)) (hf : f.params = pre ++ ps) (pos : List PV) (hl : pos.length = pre.length)
    {kws : List (Name × PV)} {xs : List PV} (h : Filled L kws ps xs) (hk : ∀ p ∈ kws, p.1 ∈ ps.map Prod.fst) (hn : ((pre ++ ps).map Prod.fst).Nodup) :
    runIn L f [] pos kws = run L f (pos ++ xs) := by
  have hb : ∀ (pre : List (Name × Option Expr)) (pos : List PV) (env : Env), pos.length = pre.length → ((pre ++ ps).map Prod.fst).Nodup →
      bindParams L f (pre ++ ps) pos kws env = bindParams L f (pre ++ ps) (pos ++ xs) [] env := by
    intro pre
    induction pre with
    | nil =>
      intro pos env hl hn
      cases pos with
      | nil => exact bind_filled L f h hk hn env
      | cons _ _ => cases hl
    | cons q pre ih =>
      intro pos env hl hn
      cases pos with
      | nil => cases hl
      | cons x pos =>
        obtain ⟨n, d⟩ := q
        rw [List.cons_append, List.map_cons] at hn
        have hn' := List.nodup_cons.mp hn
        have h0 : takeKw n kws = none := by
          have : ∀ l : List (Name × PV), (∀ p ∈ l, p.1 ≠ n) → takeKw n l = none := by
            intro l
            induction l with
            | nil => intro _; rfl
            | cons r l ihl =>
              intro h
              obtain ⟨k, y⟩ := r
              unfold takeKw
              rw [if_neg (h (k, y) List.mem_cons_self)]
              exact ihl fun p hp => h p (List.mem_cons_of_mem _ hp)
          refine this kws fun p hp he => hn'.1 ?_
          rw [List.map_append]
          exact List.mem_append_right _ (he ▸ hk p hp)
        have e1 : bindParams L f ((n, d) :: (pre ++ ps)) (x :: pos) kws env = bindParams L f (pre ++ ps) pos kws (env.put n x) := by
          conv => lhs; unfold bindParams
          rw [h0]
          rfl
        have e2 : bindParams L f ((n, d) :: (pre ++ ps)) (x :: (pos ++ xs)) [] env = bindParams L f (pre ++ ps) (pos ++ xs) [] (env.put n x) := rfl
        rw [List.cons_append, List.cons_append, e1, e2]
        exact ih pos _ (Nat.succ.inj hl) hn'.2
  unfold run runIn
  rw [hf, hb pre pos [] hl hn]

end ZS.PyC
