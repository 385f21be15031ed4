import Verif.Model.Permission

/-!
# C41, C42 Permissions as utilities

`Distinct us`: zope.component registers at most one utility per interface and name.
-/

namespace ZS.Props

/-- At most one utility per name. -/
def Distinct (us : Utilities) : Prop := (us.map (·.1)).Nodup

theorem lookup_iff {us : Utilities} (h : Distinct us) (n : String) (u : Nat) : queryUtility us n = some u ↔ (n, u) ∈ us := by
  unfold queryUtility
  induction us with
  | nil => simp
  | cons e r ih =>
    obtain ⟨m, v⟩ := e
    simp only [Distinct, List.map_cons, List.nodup_cons] at h
    by_cases hm : n = m
    · subst hm
      simp only [List.lookup_cons, beq_self_eq_true, List.mem_cons, Prod.mk.injEq, true_and, Option.some.injEq]
      constructor
      · intro h; exact .inl h.symm
      · rintro (h' | h')
        · exact h'.symm
        · exact absurd (List.mem_map.mpr ⟨_, h', rfl⟩) h.1
    · have : (n == m) = false := by simpa using hm
      simp only [List.lookup_cons, this, List.mem_cons, Prod.mk.injEq, hm, false_and, false_or]
      exact ih h.2

/-- **C42** Accepted are `CheckerPublic` and the ids of registered permissions (whose objects are true);
everything else, also the string `zope.Public` when it is not registered, is a `ValueError`. -/
theorem C42_check (us : Utilities) (h : Distinct us) (truth : Nat → Bool) (p : PermId) :
    (checkPermissionDefined us truth p = .ok () ↔ p = .checkerPublic ∨ ∃ n u, p = .id n ∧ (n, u) ∈ us ∧ truth u = true)
    ∧ (checkPermissionDefined us truth p = .ok () ∨ checkPermissionDefined us truth p = .err .valueError) := by
  cases p with
  | checkerPublic => exact ⟨by simp [checkPermissionDefined], .inl rfl⟩
  | id n =>
    simp only [checkPermissionDefined]
    cases hq : queryUtility us n with
    | none =>
      refine ⟨⟨(fun h => by cases h), ?_⟩, .inr rfl⟩
      rintro (h' | ⟨m, u, h1, h2, h3⟩)
      · cases h'
      · cases h1; rw [(lookup_iff h n u).mpr h2] at hq; cases hq
    | some u =>
      have hu := (lookup_iff h n u).mp hq
      by_cases ht : truth u = true
      · simp only [ht, if_true, true_iff]
        exact ⟨.inr ⟨n, u, rfl, hu, ht⟩, .inl trivial⟩
      · simp only [ht, if_false, Bool.false_eq_true]
        refine ⟨⟨(fun h => by cases h), ?_⟩, .inr trivial⟩
        rintro (h' | ⟨m, v, h1, h2, h3⟩)
        · cases h'
        · cases h1
          rw [(lookup_iff h n v).mpr h2] at hq
          cases hq
          exact absurd h3 ht

theorem mem_allPermissions (us : Utilities) (n : String) :
    n ∈ allPermissions us ↔ (∃ u, (n, u) ∈ us) ∧ n ≠ "zope.Public" := by
  induction us with
  | nil => simp [allPermissions]
  | cons e r ih =>
    obtain ⟨m, v⟩ := e
    simp only [allPermissions]
    by_cases hm : m = zopePublic
    · simp only [hm, ne_eq, not_true_eq_false, if_false, ih, List.mem_cons, Prod.mk.injEq]
      constructor
      · rintro ⟨⟨u, h⟩, h'⟩; exact ⟨⟨u, .inr h⟩, h'⟩
      · rintro ⟨⟨u, h | h⟩, h'⟩
        · exact absurd h.1 h'
        · exact ⟨⟨u, h⟩, h'⟩
    · simp only [hm, ne_eq, not_false_eq_true, if_true, List.mem_cons, ih, Prod.mk.injEq]
      constructor
      · rintro (h | ⟨⟨u, h⟩, h'⟩)
        · exact ⟨⟨v, .inl ⟨h, rfl⟩⟩, by rw [h]; exact hm⟩
        · exact ⟨⟨u, .inr h⟩, h'⟩
      · rintro ⟨⟨u, h | h⟩, h'⟩
        · exact .inl h.1
        · exact .inr ⟨⟨u, h⟩, h'⟩

/-- **C42** Every registered id except `zope.Public`, once. -/
theorem C42_all (us : Utilities) (h : Distinct us) :
    (allPermissions us).Nodup ∧ ∀ n, n ∈ allPermissions us ↔ (∃ u, (n, u) ∈ us) ∧ n ≠ "zope.Public" := by
  refine ⟨?_, mem_allPermissions us⟩
  induction us with
  | nil => simp [allPermissions]
  | cons e r ih =>
    obtain ⟨m, v⟩ := e
    simp only [Distinct, List.map_cons, List.nodup_cons] at h
    simp only [allPermissions]
    by_cases hm : m = zopePublic
    · simp only [hm, ne_eq, not_true_eq_false, if_false]; exact ih h.2
    · simp only [hm, ne_eq, not_false_eq_true, if_true, List.nodup_cons]
      refine ⟨fun h' => ?_, ih h.2⟩
      obtain ⟨⟨u, h1⟩, _⟩ := (mem_allPermissions r m).mp h'
      exact h.1 (List.mem_map.mpr ⟨_, h1, rfl⟩)

/-! ## C41 -/

theorem idTerms_spec (esc : String → String) (us : Utilities) :
    (idTerms esc us).1 = (allPermissions us).map (fun n => ⟨.id n, esc n, n⟩)
    ∧ ((idTerms esc us).2 = true ↔ ∃ u, ("zope.Public", u) ∈ us) := by
  induction us with
  | nil => simp [idTerms, allPermissions]
  | cons e r ih =>
    obtain ⟨m, v⟩ := e
    simp only [idTerms, allPermissions]
    by_cases hm : m = zopePublic
    · subst hm
      simp only [if_true, ne_eq, not_true_eq_false, if_false, true_iff]
      exact ⟨ih.1, v, List.mem_cons_self ..⟩
    · simp only [hm, if_false, ne_eq, not_false_eq_true, if_true, List.map_cons, ih.1, true_and]
      rw [ih.2]
      constructor
      · rintro ⟨u, h⟩; exact ⟨u, List.mem_cons_of_mem _ h⟩
      · rintro ⟨u, h⟩
        rcases List.mem_cons.mp h with h | h
        · cases h; exact absurd rfl hm
        · exact ⟨u, h⟩

/-- The order of terms by title. -/
abbrev byTitle (a b : Term PermId) : Bool := decide (a.title ≤ b.title)

/-- **C41** The vocabulary of permission ids, when the escaped ids are distinct: first the public permission,
if it is registered, with `CheckerPublic` as its value; then exactly one term for every other
registered permission, the id being its value, in strictly increasing order. -/
theorem C41_ids (esc : String → String) (us : Utilities) (h : Distinct us) (hesc : (us.map fun u => esc u.1).Nodup) :
    ∃ first rest, permissionIdsVocabulary esc us = .ok (first ++ rest)
      ∧ ((∃ u, ("zope.Public", u) ∈ us) → first = [⟨.checkerPublic, esc "zope.Public", "Public"⟩])
      ∧ ((¬ ∃ u, ("zope.Public", u) ∈ us) → first = [])
      ∧ (∀ t, t ∈ rest ↔ ∃ n u, (n, u) ∈ us ∧ n ≠ "zope.Public" ∧ t = ⟨.id n, esc n, n⟩)
      ∧ rest.Pairwise (fun a b => a.title < b.title) := by
  obtain ⟨hterms, hpub⟩ := idTerms_spec esc us
  obtain ⟨hnd, hmem⟩ := C42_all us h
  have hp := List.mergeSort_perm (idTerms esc us).1 byTitle
  have hsorted : ((idTerms esc us).1.mergeSort byTitle).Pairwise (fun a b => byTitle a b = true) :=
    List.pairwise_mergeSort (fun a b c h1 h2 => by
      simp only [byTitle, decide_eq_true_eq] at *; exact String.le_trans h1 h2)
      (fun a b => by simpa [byTitle] using String.le_total a.title b.title) _
  generalize hrest : (idTerms esc us).1.mergeSort byTitle = rest at hp hsorted
  have htit : (rest.map (·.title)).Nodup := by
    rw [(hp.map _).nodup_iff, hterms, List.map_map]
    simpa [Function.comp_def] using hnd
  have hval : (rest.map (·.value)).Nodup := by
    rw [(hp.map _).nodup_iff, hterms, List.map_map]
    exact List.Pairwise.map _ (fun a b (hab : a ≠ b) => by simpa [Function.comp_def] using hab) hnd
  have hmr : ∀ t, t ∈ rest ↔ ∃ n u, (n, u) ∈ us ∧ n ≠ "zope.Public" ∧ t = ⟨.id n, esc n, n⟩ := by
    intro t
    rw [hp.mem_iff, hterms, List.mem_map]
    constructor
    · rintro ⟨n, h1, rfl⟩
      obtain ⟨⟨u, h2⟩, h3⟩ := (hmem n).mp h1
      exact ⟨n, u, h2, h3, rfl⟩
    · rintro ⟨n, u, h2, h3, rfl⟩
      exact ⟨n, (hmem n).mpr ⟨⟨u, h2⟩, h3⟩, rfl⟩
  have hinj : ∀ n u m v, (n, u) ∈ us → (m, v) ∈ us → esc n = esc m → n = m := by
    intro n u m v h1 h2 h3
    have hpair : us.Pairwise (fun a b => esc a.1 ≠ esc b.1) := by
      have := hesc; rw [List.Nodup, List.pairwise_map] at this; exact this
    by_cases hnm : n = m
    · exact hnm
    · exact absurd h3 (by
        have key : ∀ l : Utilities, l.Pairwise (fun a b => esc a.1 ≠ esc b.1) → (n, u) ∈ l → (m, v) ∈ l → esc n ≠ esc m := by
          intro l
          induction l with
          | nil => intro _ h; cases h
          | cons a l ih =>
            intro hp h1 h2
            rw [List.pairwise_cons] at hp
            rcases List.mem_cons.mp h1 with h1 | h1 <;> rcases List.mem_cons.mp h2 with h2 | h2
            · rw [← h1] at h2; cases h2; exact absurd rfl hnm
            · rw [← h1] at hp; exact hp.1 _ h2
            · rw [← h2] at hp; exact fun h => hp.1 _ h1 h.symm
            · exact ih hp.2 h1 h2
        exact key us hpair h1 h2)
  have htok : (rest.map (·.token)).Nodup := by
    rw [(hp.map _).nodup_iff, hterms, List.map_map, List.Nodup, List.pairwise_map]
    refine hnd.imp_of_mem fun {a b} ha hb hab => ?_
    obtain ⟨⟨u, h2⟩, _⟩ := (hmem a).mp ha
    obtain ⟨⟨v, h3⟩, _⟩ := (hmem b).mp hb
    exact fun h' => hab (hinj _ _ _ _ h2 h3 h')
  have hstrict : rest.Pairwise (fun a b => a.title < b.title) := by
    have h2 : rest.Pairwise (fun a b => a.title ≠ b.title) := by
      have := htit; rw [List.Nodup, List.pairwise_map] at this; exact this
    refine (hsorted.and h2).imp fun {a b} hab => ?_
    exact Std.lt_of_le_of_ne (by simpa [byTitle] using hab.1) hab.2
  have hrun : permissionIdsVocabulary esc us = simpleVocabulary (if (idTerms esc us).2 then
      ⟨.checkerPublic, esc zopePublic, "Public"⟩ :: rest else rest) := by
    unfold permissionIdsVocabulary
    rw [hrest]
  by_cases hb : ∃ u, ("zope.Public", u) ∈ us
  · refine ⟨[⟨.checkerPublic, esc "zope.Public", "Public"⟩], rest, ?_, fun _ => rfl, fun h => absurd hb h, hmr, hstrict⟩
    rw [hrun, if_pos (hpub.mpr hb)]
    unfold simpleVocabulary
    rw [if_pos]
    · rfl
    · simp only [List.map_cons, List.nodup_cons]
      refine ⟨⟨fun h' => ?_, hval⟩, fun h' => ?_, htok⟩
      · obtain ⟨t, h1, h2⟩ := List.mem_map.mp h'
        obtain ⟨n, u, _, _, rfl⟩ := (hmr t).mp h1
        cases h2
      · obtain ⟨t, h1, h2⟩ := List.mem_map.mp h'
        obtain ⟨n, u, h3, h4, rfl⟩ := (hmr t).mp h1
        obtain ⟨v, hv⟩ := hb
        exact h4 (hinj _ _ _ _ h3 hv h2)
  · refine ⟨[], rest, ?_, fun h => absurd h hb, fun _ => rfl, hmr, hstrict⟩
    rw [hrun, if_neg (fun h => hb (hpub.mp h))]
    unfold simpleVocabulary
    rw [if_pos ⟨hval, htok⟩]
    rfl

/-- **C41** The vocabulary of permissions: one term per registered permission, the object as value, the escaped id
as token, provided that no object is registered twice and the escaped ids are distinct; otherwise `ValueError`. -/
theorem C41_permissions (esc : String → String) (us : Utilities) :
    (((us.map (·.2)).Nodup ∧ (us.map fun u => esc u.1).Nodup) →
      ∃ terms, permissionsVocabulary esc us = .ok terms ∧ terms.map (·.value) = us.map (·.2)
        ∧ terms.map (·.token) = us.map (fun u => esc u.1) ∧ terms.length = us.length)
    ∧ (¬ ((us.map (·.2)).Nodup ∧ (us.map fun u => esc u.1).Nodup) → permissionsVocabulary esc us = .err .valueError) := by
  unfold permissionsVocabulary simpleVocabulary
  simp only [List.map_map, Function.comp_def]
  constructor
  · intro h
    rw [if_pos h]
    exact ⟨_, rfl, by simp [Function.comp_def], by simp [Function.comp_def], by simp⟩
  · intro h
    rw [if_neg h]

/-- Escaping is what makes ids collide: `é` and the four characters backslash, x, e, 9 give the same token. -/
theorem C41_collision (esc : String → String) (a b : String) (u v : Nat) (hab : a ≠ b) (ha : a ≠ "zope.Public") (hb : b ≠ "zope.Public")
    (h : esc a = esc b) : permissionIdsVocabulary esc [(a, u), (b, v)] = .err .valueError := by
  unfold permissionIdsVocabulary simpleVocabulary
  rw [if_neg]
  rintro ⟨_, h2⟩
  have hid : idTerms esc [(a, u), (b, v)] = ([⟨.id a, esc a, a⟩, ⟨.id b, esc b, b⟩], false) := by
    simp [idTerms, zopePublic, ha, hb]
  rw [hid] at h2
  simp only [Bool.false_eq_true, if_false] at h2
  have hp := (List.mergeSort_perm [(⟨.id a, esc a, a⟩ : Term PermId), ⟨.id b, esc b, b⟩] byTitle).map (·.token)
  rw [hp.nodup_iff] at h2
  simp [h] at h2

example : Distinct [("b", 1), ("zope.Public", 2), ("a", 3)] := by unfold Distinct; decide

example : permissionIdsVocabulary id [("b", 1), ("zope.Public", 2), ("a", 3)]
    = .ok [⟨.checkerPublic, "zope.Public", "Public"⟩, ⟨.id "a", "a", "a"⟩, ⟨.id "b", "b", "b"⟩] := by
  simp [permissionIdsVocabulary, idTerms, zopePublic, List.mergeSort, simpleVocabulary]

example : allPermissions [("b", 1), ("zope.Public", 2), ("a", 3)] = ["b", "a"] := by decide
example : checkPermissionDefined [("b", 1)] (fun _ => true) (.id "zope.Public") = .err .valueError := by decide

/-- The same object under two ids. -/
example : permissionsVocabulary id [("a", 1), ("b", 1)] = .err .valueError := by decide

end ZS.Props
