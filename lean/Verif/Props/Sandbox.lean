import Verif.Model.Sandbox
import Verif.Model.Run
import Verif.Lemmas.Checks
import Verif.Examples.World

/-!
# C46 The sandbox example
-/

namespace ZS.Props
variable {A P : Type}

/-- The home's table lists the permission for the token. -/
def Lists (db : String → DbAttr P) (home token : String) (perm : P) : Prop :=
  ∃ t l, db home = .table t ∧ t token = some l ∧ perm ∈ l

/-- **C46** The policy grants exactly what the home lists for everybody, and what it lists for the tokens of
all participants, of which there must be at least one.  `ALL` counts for everybody only. -/
theorem C46_policy [DecidableEq P] (ALL : P) (db : String → DbAttr P) (home : String) (tokens : List String) (perm : P) :
    sandboxCheck ALL db home tokens perm = .ok true
      ↔ Lists db home "any" perm ∨ Lists db home "any" ALL
        ∨ (tokens ≠ [] ∧ ∀ token ∈ tokens, Lists db home token perm) := by
  unfold sandboxCheck Lists
  cases hd : db home with
  | missing => simp; exact fun h => by cases tokens with | nil => exact absurd rfl h | cons a l => exact ⟨a, by simp⟩
  | other => simp; exact fun h => by cases tokens with | nil => exact absurd rfl h | cons a l => exact ⟨a, by simp⟩
  | table t =>
    have key : ∀ token p, p ∈ (t token).getD [] ↔ ∃ t' l, DbAttr.table t = .table t' ∧ t' token = some l ∧ p ∈ l := by
      intro token p
      constructor
      · intro h
        cases ht : t token with
        | none => rw [ht] at h; cases h
        | some l => rw [ht] at h; exact ⟨t, l, rfl, ht, h⟩
      · rintro ⟨t', l, h1, h2, h3⟩
        cases h1
        rw [h2]; exact h3
    simp only [← key]
    by_cases h1 : perm ∈ (t "any").getD [] ∨ ALL ∈ (t "any").getD []
    · rw [if_pos h1]
      simp only [true_iff]
      rcases h1 with h1 | h1
      · exact .inl h1
      · exact .inr (.inl h1)
    · rw [if_neg h1]
      have h2 : perm ∉ (t "any").getD [] := fun h => h1 (.inl h)
      have h3 : ALL ∉ (t "any").getD [] := fun h => h1 (.inr h)
      cases tokens with
      | nil => simp [h2, h3]
      | cons a l => simp [h2, h3]

/-- **C46** A home that is not in the database gets nothing, whoever asks. -/
theorem C46_unknown_home [DecidableEq P] (ALL : P) (db : String → DbAttr P) (home : String) (h : db home = .missing)
    (tokens : List String) (perm : P) : sandboxCheck ALL db home tokens perm = .ok false := by
  unfold sandboxCheck
  rw [h]

/-- **C46** A home named like another attribute of the database class (its docstring, say) makes every check
raise instead of refusing. -/
theorem C46_other_attribute [DecidableEq P] (ALL : P) (db : String → DbAttr P) (home : String) (h : db home = .other)
    (tokens : List String) (perm : P) : sandboxCheck ALL db home tokens perm = .err (.attributeError "get") := by
  unfold sandboxCheck
  rw [h]

/-- **C46** One more participant never gets a non-empty company more. -/
theorem C46_more_participants [DecidableEq P] (ALL : P) (db : String → DbAttr P) (home token : String) (tokens : List String) (perm : P)
    (hne : tokens ≠ []) (h : sandboxCheck ALL db home (token :: tokens) perm = .ok true) :
    sandboxCheck ALL db home tokens perm = .ok true := by
  rw [C46_policy] at h ⊢
  rcases h with h | h | ⟨_, h⟩
  · exact .inl h
  · exact .inr (.inl h)
  · exact .inr (.inr ⟨hne, fun t ht => h t (List.mem_cons_of_mem _ ht)⟩)

/-- **C46** In the shipped database, a company with a member who has no token known in jail may use the
time service and add agents there, and nothing else. -/
theorem C46_jail (tokens : List String) (token perm : String) (hm : token ∈ tokens) (h1 : token ≠ "norse legend") :
    sandboxCheck "All" simulationDb "jail" tokens perm = .ok true ↔ perm = "Access Time Services" ∨ perm = "Add Agent" := by
  rw [C46_policy]
  have hany : ∀ p, Lists simulationDb "jail" "any" p ↔ p = "Access Time Services" ∨ p = "Add Agent" := by
    intro p
    unfold Lists
    constructor
    · rintro ⟨t, l, e1, e2, e3⟩
      simp only [simulationDb] at e1
      cases e1
      cases e2
      simpa using e3
    · intro h
      exact ⟨_, _, rfl, rfl, by simpa using h⟩
  have htok : ∀ p, token ≠ "any" → ¬ Lists simulationDb "jail" token p := by
    rintro p h2 ⟨t, l, e1, e2, e3⟩
    simp only [simulationDb] at e1
    cases e1
    simp only [h1, h2] at e2
    cases e2
  constructor
  · rintro (h | h | ⟨_, h⟩)
    · exact (hany _).mp h
    · rcases (hany _).mp h with h | h <;> exact absurd h (by decide)
    · by_cases h2 : token = "any"
      · subst h2; exact (hany _).mp (h _ hm)
      · exact absurd (h _ hm) (htok _ h2)
  · exact fun h => .inl ((hany _).mpr h)

example : sandboxCheck "All" simulationDb "jail" ["norse legend"] "Access Agents" = .ok true := by decide
example : sandboxCheck "All" simulationDb "jail" ["norse legend", "thief"] "Access Agents" = .ok false := by decide
example : sandboxCheck "All" simulationDb "origin" [] "Access Agents" = .ok true := by decide
example : sandboxCheck "All" simulationDb "jail" [] "Access Agents" = .ok false := by decide
example : simulationDb "attic" = .missing := by rfl

/-! ## Permission maps -/

/-- `p` is the permission of the last entry of the map that lists the method. -/
def LastEntry (m : List (Val × List Name)) (n : Name) (p : Val) : Prop :=
  ∃ pre ms post, m = pre ++ (p, ms) :: post ∧ n ∈ ms ∧ ∀ e ∈ post, n ∉ e.2

theorem listMethods_get (p : Val) (ms : List Name) (d : PyDict Name Val) (n : Name) :
    (listMethods p ms d).get? n = if n ∈ ms then some p else d.get? n := by
  induction ms generalizing d with
  | nil => simp [listMethods]
  | cons m ms ih =>
    rw [listMethods, ih]
    by_cases h : n ∈ ms
    · simp [h]
    · by_cases hm : n = m
      · subst hm; simp
      · have hm' : m ≠ n := fun h => hm h.symm
        simp [h, hm, PyDict.get?_set_ne d p hm']

theorem permissionMap_get (m : List (Val × List Name)) (d : PyDict Name Val) (n : Name) (p : Val) :
    (permissionMap m d).get? n = some p ↔ LastEntry m n p ∨ ((∀ e ∈ m, n ∉ e.2) ∧ d.get? n = some p) := by
  induction m generalizing d with
  | nil => simp [permissionMap, LastEntry]
  | cons e r ih =>
    obtain ⟨q, ms⟩ := e
    rw [permissionMap, ih, listMethods_get]
    constructor
    · rintro (⟨pre, ms', post, rfl, h2, h3⟩ | ⟨h1, h2⟩)
      · exact .inl ⟨(q, ms) :: pre, ms', post, rfl, h2, h3⟩
      · by_cases hn : n ∈ ms
        · rw [if_pos hn] at h2
          cases h2
          exact .inl ⟨[], ms, r, rfl, hn, h1⟩
        · rw [if_neg hn] at h2
          refine .inr ⟨fun e he => ?_, h2⟩
          rcases List.mem_cons.mp he with rfl | he
          · exact hn
          · exact h1 e he
    · rintro (⟨pre, ms', post, h1, h2, h3⟩ | ⟨h1, h2⟩)
      · cases pre with
        | nil =>
          simp only [List.nil_append, List.cons.injEq, Prod.mk.injEq] at h1
          obtain ⟨⟨rfl, rfl⟩, rfl⟩ := h1
          exact .inr ⟨h3, by rw [if_pos h2]⟩
        | cons a pre =>
          simp only [List.cons_append, List.cons.injEq] at h1
          exact .inl ⟨pre, ms', post, h1.2, h2, h3⟩
      · have hn : n ∉ ms := h1 (q, ms) (List.mem_cons_self ..)
        exact .inr ⟨fun e he => h1 e (List.mem_cons_of_mem _ he), by rw [if_neg hn]; exact h2⟩

/-- **C46** The new checker requires for each method the permission of the last entry listing it, nothing
for the others, and for writing what it was given; it is made of new dictionaries, the old ones stay. -/
theorem C46_permission_map (m : List (Val × List Name)) (set : PyDict Name Val) (s : St A) :
    ∃ i g st s', permissionMapChecker m set s = (.ok (.checker i g st), s')
      ∧ (∀ n p, (s'.dicts g).get? n = some p ↔ LastEntry m n p)
      ∧ s'.dicts st = set
      ∧ g ≠ st ∧ s.nextId ≤ g ∧ s.nextId ≤ st ∧ (∀ k, k < s.nextId → s'.dicts k = s.dicts k) := by
  refine ⟨s.nextId + 1 + 1, s.nextId, s.nextId + 1, _, rfl, fun n p => ?_, ?_, by omega, by omega, by omega, fun k hk => ?_⟩
  · have : (permissionMap m []).get? n = some p ↔ LastEntry m n p := by
      rw [permissionMap_get]; simp
    simpa using this
  · simp
  · have h1 : k ≠ s.nextId + 1 := by omega
    have h2 : k ≠ s.nextId := by omega
    simp [h1, h2]

/-- A method listed twice. -/
example : LastEntry [(Ex.view, ["a", "b"]), (Ex.edit, ["b"])] "b" Ex.edit :=
  ⟨[(Ex.view, ["a", "b"])], ["b"], [], rfl, by decide, by simp⟩

example : (permissionMap [(Ex.view, ["a", "b"]), (Ex.edit, ["b"])] []).get? "b" = some Ex.edit := by decide

end ZS.Props
