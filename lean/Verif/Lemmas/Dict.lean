import Verif.Model.Run
import Verif.Model.Registry

/-!
# Dictionary lemmas
-/

namespace ZS.PyDict
variable {κ ν : Type} [DecidableEq κ]

theorem mem_keys_set (d : PyDict κ ν) (k : κ) (v : ν) (x : κ) : x ∈ (d.set k v).keys ↔ x = k ∨ x ∈ d.keys := by
  have h1 := get?_eq_none_iff (d.set k v) x
  have h2 := get?_eq_none_iff d x
  rw [get?_set] at h1
  by_cases h : k = x
  · subst h; simp at h1; simp [h1]
  · rw [if_neg h] at h1
    rw [h2] at h1
    have : x ∈ (d.set k v).keys ↔ x ∈ d.keys := by
      constructor
      · intro hx; exact Classical.byContradiction fun hn => h1.mp hn hx
      · intro hx; exact Classical.byContradiction fun hn => h1.mpr hn hx
    rw [this]; simp [Ne.symm h]

theorem nodup_set {d : PyDict κ ν} (h : d.keys.Nodup) (k : κ) (v : ν) : (d.set k v).keys.Nodup := by
  induction d with
  | nil => simp [set, keys]
  | cons p r ih =>
    obtain ⟨a, b⟩ := p
    simp only [keys, List.map_cons, List.nodup_cons] at h
    simp only [set]
    split
    · next h' => simp only [keys, List.map_cons, List.nodup_cons]; exact h
    · next h' =>
      simp only [keys, List.map_cons, List.nodup_cons]
      refine ⟨?_, ih h.2⟩
      intro hm
      have : a ∈ (set r k v).keys := hm
      rw [mem_keys_set] at this
      rcases this with h1 | h1
      · exact h' h1
      · exact h.1 h1

theorem nodup_del {d : PyDict κ ν} (h : d.keys.Nodup) (k : κ) : (d.del k).keys.Nodup :=
  List.Nodup.sublist (List.Sublist.map _ List.filter_sublist) h

theorem nodup_update {d : PyDict κ ν} (h : d.keys.Nodup) (e : PyDict κ ν) : (d.update e).keys.Nodup := by
  unfold update
  induction e generalizing d with
  | nil => exact h
  | cons p r ih => exact ih (nodup_set h _ _)

/-- `d.update(e)` for a real dictionary `e`. -/
theorem get?_update_nodup (d : PyDict κ ν) {e : PyDict κ ν} (h : e.keys.Nodup) (x : κ) :
    (d.update e).get? x = (e.get? x).or (d.get? x) := by
  unfold update
  induction e generalizing d with
  | nil => rfl
  | cons p r ih =>
    obtain ⟨a, b⟩ := p
    simp only [keys, List.map_cons, List.nodup_cons] at h
    simp only [List.foldl_cons]
    rw [ih _ h.2, get?_set]
    simp only [get?]
    split
    · next h' =>
      subst h'
      have : get? r a = none := (get?_eq_none_iff r a).mpr h.1
      simp [this]
    · rfl

theorem get?_of_mem {d : PyDict κ ν} (h : d.keys.Nodup) {k : κ} {v : ν} (hm : (k, v) ∈ d) : d.get? k = some v := by
  induction d with
  | nil => cases hm
  | cons p r ih =>
    obtain ⟨a, b⟩ := p
    simp only [keys, List.map_cons, List.nodup_cons] at h
    simp only [get?]
    rcases List.mem_cons.mp hm with h1 | h1
    · cases h1; simp
    · split
      · next h2 => subst h2; exact absurd (List.mem_map_of_mem (f := Prod.fst) h1) h.1
      · exact ih h.2 h1

theorem mem_of_get? {d : PyDict κ ν} {k : κ} {v : ν} (h : d.get? k = some v) : (k, v) ∈ d := by
  induction d with
  | nil => cases h
  | cons p r ih =>
    obtain ⟨a, b⟩ := p
    simp only [get?] at h
    split at h
    · next h1 => subst h1; cases h; simp
    · exact List.mem_cons_of_mem _ (ih h)

theorem mem_iff (d : PyDict κ ν) (k : κ) : d.mem k = true ↔ ∃ v, d.get? k = some v := by
  unfold mem; rw [Option.isSome_iff_exists]

end ZS.PyDict

namespace ZS

/-- What a loop of assignments with duplication test ends with. -/
theorem addNames_ok (d : PyDict Name Val) (l : List (Name × Val)) (d' : PyDict Name Val)
    (h : addNames d l = .ok d') (x : Name) :
    (∀ p, (x, p) ∈ l → d'.get? x = some p ∧ (d.get? x = none ∨ d.get? x = some p))
    ∧ ((∀ p, (x, p) ∉ l) → d'.get? x = d.get? x) := by
  induction l generalizing d with
  | nil => cases h; simp
  | cons a r ih =>
    obtain ⟨n, p⟩ := a
    simp only [addNames] at h
    split at h
    · cases h
    · next d1 h1 =>
      unfold addName at h1
      split at h1
      · cases h1
      · next h2 =>
        cases h1
        have hd : d.get? n = none ∨ d.get? n = some p := by
          cases hg : d.get? n with
          | none => exact .inl rfl
          | some q => simp [hg] at h2; right; rw [h2]
        obtain ⟨i1, i2⟩ := ih (d.set n p) h
        refine ⟨fun q hq => ?_, fun hq => ?_⟩
        · rcases List.mem_cons.mp hq with h3 | h3
          · cases h3
            refine ⟨?_, hd⟩
            by_cases hx : ∃ q, (x, q) ∈ r
            · obtain ⟨q', hq'⟩ := hx
              have := i1 q' hq'
              rw [PyDict.get?_set_self] at this
              simp at this; rw [this.1, this.2]
            · rw [i2 (fun p hp => hx ⟨p, hp⟩), PyDict.get?_set_self]
          · have := i1 q h3
            refine ⟨this.1, ?_⟩
            by_cases hx : n = x
            · subst hx
              rw [PyDict.get?_set_self] at this
              simp at this; rw [← this.2]; exact hd
            · rw [PyDict.get?_set_ne _ _ hx] at this; exact this.2
        · have hne : n ≠ x := fun h => hq p (by rw [h]; simp)
          rw [i2 (fun p hp => hq p (List.mem_cons_of_mem _ hp)), PyDict.get?_set_ne _ _ hne]

/-- Exactly when such a loop succeeds. -/
theorem addNames_isOk_iff (d : PyDict Name Val) (l : List (Name × Val)) :
    (∃ d', addNames d l = .ok d') ↔
      (∀ x p q, (x, p) ∈ l → (x, q) ∈ l → p = q) ∧ (∀ x p q, (x, p) ∈ l → d.get? x = some q → p = q) := by
  constructor
  · rintro ⟨d', h⟩
    constructor
    · intro x p q hp hq
      have h1 := ((addNames_ok d l d' h x).1 p hp).1
      have h2 := ((addNames_ok d l d' h x).1 q hq).1
      rw [h1] at h2; cases h2; rfl
    · intro x p q hp hq
      rcases ((addNames_ok d l d' h x).1 p hp).2 with h1 | h1 <;> rw [h1] at hq <;> cases hq
      rfl
  · intro h
    induction l generalizing d with
    | nil => exact ⟨d, rfl⟩
    | cons a r ih =>
      obtain ⟨n, p⟩ := a
      obtain ⟨h1, h2⟩ := h
      have hd : (d.get? n).getD p = p := by
        cases hg : d.get? n with
        | none => rfl
        | some q => exact (h2 n p q (by simp) hg).symm
      simp only [addNames, addName, hd, ne_eq, not_true_eq_false, if_false]
      apply ih
      constructor
      · intro x p q hp hq; exact h1 x p q (List.mem_cons_of_mem _ hp) (List.mem_cons_of_mem _ hq)
      · intro x q r' hq hr
        rw [PyDict.get?_set] at hr
        split at hr
        · next hx => subst hx; cases hr; exact h1 _ _ _ (List.mem_cons_of_mem _ hq) (by simp)
        · exact h2 x q r' (List.mem_cons_of_mem _ hq) hr

/-- The only way such a loop fails, and with which name. -/
theorem addNames_error (d : PyDict Name Val) (l : List (Name × Val)) (e : Exn) (h : addNames d l = .error e) :
    ∃ n p, (n, p) ∈ l ∧ e = .duplicationName n := by
  induction l generalizing d with
  | nil => cases h
  | cons a r ih =>
    obtain ⟨n, p⟩ := a
    simp only [addNames] at h
    split at h
    · next h1 =>
      unfold addName at h1
      split at h1
      · cases h1; cases h; exact ⟨n, p, by simp, rfl⟩
      · cases h1
    · obtain ⟨m, q, h1, h2⟩ := ih _ h
      exact ⟨m, q, List.mem_cons_of_mem _ h1, h2⟩

theorem addNames_append (d : PyDict Name Val) (l1 l2 : List (Name × Val)) :
    addNames d (l1 ++ l2) = match addNames d l1 with
      | .error e => .error e
      | .ok d' => addNames d' l2 := by
  induction l1 generalizing d with
  | nil => rfl
  | cons a r ih =>
    obtain ⟨n, p⟩ := a
    simp only [List.cons_append, addNames]
    split
    · rfl
    · exact ih _

theorem multiLoop_eq (d : PyDict Name Val) (specs : List MSpec) :
    multiLoop d specs = addNames d (specs.flatMap MSpec.pairs) := by
  induction specs generalizing d with
  | nil => rfl
  | cons sp r ih =>
    simp only [multiLoop, List.flatMap_cons, addNames_append]
    split
    · next h => rw [h]
    · next h => rw [h, ih]

end ZS
