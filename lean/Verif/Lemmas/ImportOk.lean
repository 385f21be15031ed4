import Verif.Lemmas.ImportSound

/-! Without faults every import succeeds. -/

namespace ZS.Imp

/-- The modules that importing the package loads in any case. -/
def core : Mod → Bool
  | .cproxy | .cchecker => false
  | .permission | .protectclass | .zcml | .testing | .adapter | .metaconfigure
  | .metadirectives => false
  | _ => true

/-- Names a finished module is relied upon to have. -/
def given : Mod → List Name
  | .i18n => ["ZopeMessageFactory"]
  | .compat => ["implementer_if_needed"]
  | .interfaces => ["PUBLIC_PERMISSION_NAME", "IPermission", "ForbiddenAttribute", "Unauthorized"]
  | .defs => ["thread_local"]
  | .proxy => ["removeSecurityProxy"]
  | .checker => ["Checker", "CheckerPublic", "defineChecker", "getCheckerForInstancesOf",
      "moduleChecker", "ProxyFactory"]
  | .management => ["setSecurityPolicy"]
  | .cproxy => ["_Proxy"]
  | .permission => ["checkPermission", "Permission"]
  | .protectclass => ["protectLikeUnto", "protectName", "protectSetAttribute"]
  | .zcml => ["Permission"]
  | _ => []

def okT (m t : Mod) : Bool :=
  core t || (decide (t.rank < m.rank) && !isC t) || (decide (m = .cchecker) && decide (t = .cproxy))

/-- Names bound and modules loaded so far. -/
structure Got where
  names : List Name
  mods : List Mod

/-- What is there after a statement that cannot fail. -/
def clear (m : Mod) (B : Got) (l : Line) : Option Got :=
  if l.guard ≠ [] then none
  else match l.stmt with
    | .work uses => if uses.all (· ∈ B.names) then some B else none
    | .new x _ uses => if uses.all (· ∈ B.names) then some ⟨x :: B.names, B.mods⟩ else none
    | .static x => some ⟨x :: B.names, B.mods⟩
    | .imp t => if okT m t then some ⟨B.names, t :: B.mods⟩ else none
    | .frm t n x => if okT m t && decide (n ∈ given t) then some ⟨x :: B.names, B.mods⟩ else none
    | .attr t n x =>
        if decide (t ∈ B.mods) && decide (n ∈ given t) then some ⟨x :: B.names, B.mods⟩ else none
    | .sub t x => if okT m t then some ⟨x :: B.names, B.mods⟩ else none
    | _ => none

def clears (m : Mod) : List Line → Got → Option Got
  | [], B => some B
  | l :: r, B =>
      match clear m B l with
      | some B' => clears m r B'
      | none => none

theorem clears_all : ∀ p w m, core m = false →
    ∃ B, clears m (body p w m) ⟨[], []⟩ = some B ∧ (given m).all (· ∈ B.names) = true ∧
      (isC m = true → (given m).all (· ∈ exports m) = true) := by
  have h : ∀ p w m, core m = false → (match clears m (body p w m) ⟨[], []⟩ with
      | some B => (given m).all (· ∈ B.names) && (!isC m || (given m).all (· ∈ exports m))
      | none => false) = true := by
    intro p w m
    cases p <;> cases w <;> cases m <;> decide +kernel
  intro p w m hm
  have h1 := h p w m hm
  split at h1
  · rename_i B hB
    simp only [Bool.and_eq_true, Bool.or_eq_true, Bool.not_eq_true'] at h1
    refine ⟨B, hB, h1.1, fun hc => h1.2.resolve_left fun h => ?_⟩
    rw [hc] at h
    cases h
  · cases h1

/-- All is well with the modules below a rank and with those the package loads. -/
structure Fine (k : Nat) (s : St) : Prop where
  low : ∀ u e, u.rank < k → s.mods u = some e → e.done = true ∧
    ∀ n ∈ given u, (e.ns.look n).isSome = true
  runs : ∀ u, u.rank < k → s.runs u = if (s.mods u).isSome then 1 else 0
  core : ∀ u, core u = true → ∃ e, s.mods u = some e ∧ ∀ n ∈ given u, (e.ns.look n).isSome = true

/-- Modules were added below rank `l`; those below `k` that were there are unchanged. -/
structure Adds (k l : Nat) (s s' : St) : Prop where
  above : ∀ u, l ≤ u.rank → s'.mods u = s.mods u ∧ s'.stat u = s.stat u ∧ s'.runs u = s.runs u
  kept : ∀ u e, u.rank < k → s.mods u = some e → s'.mods u = some e

theorem Adds.rfl {k l : Nat} {s : St} : Adds k l s s :=
  ⟨fun _ _ => ⟨Eq.refl _, Eq.refl _, Eq.refl _⟩, fun _ _ _ h => h⟩

theorem Adds.trans {k l : Nat} {s s' s'' : St} (h : Adds k l s s') (h' : Adds k l s' s'') :
    Adds k l s s'' :=
  ⟨fun u hu => ⟨(h'.above u hu).1.trans (h.above u hu).1,
      (h'.above u hu).2.1.trans (h.above u hu).2.1, (h'.above u hu).2.2.trans (h.above u hu).2.2⟩,
   fun u e hu he => h'.kept u e hu (h.kept u e hu he)⟩

/-- Importing a module of rank below `k` succeeds. -/
structure Works (env : Env) (k : Nat) (f : Mod → St → Out) : Prop where
  run : ∀ t s, t.rank < k → (isC t = true → env.built t = true) → Fine (t.rank + 1) s →
    ∃ s', f t s = (none, s') ∧ Fine (t.rank + 1) s' ∧ Adds (t.rank + 1) (t.rank + 1) s s' ∧
      (s'.mods t).isSome = true
  present : ∀ t s, (s.mods t).isSome = true → f t s = (none, s)

/-- While the body of `m` is executed. -/
structure Busy (m : Mod) (s : St) : Prop where
  fine : Fine m.rank s
  here : isC m = false → ∃ ns, s.mods m = some ⟨false, ns⟩
  nowhere : isC m = true → s.mods m = none

def Has (m : Mod) (s : St) (B : Got) : Prop :=
  (∀ n ∈ B.names, ((own m s).look n).isSome = true) ∧
  ∀ t ∈ B.mods, core t = true ∨ (t.rank < m.rank ∧ ∃ e, s.mods t = some e)

/-- A module loaded by an earlier statement has what it is relied upon to have. -/
theorem has_mod {m : Mod} {s : St} (h : Busy m s) {B : Got} (hB : Has m s B) {t : Mod}
    (ht : t ∈ B.mods) : ∃ e, s.mods t = some e ∧ ∀ n ∈ given t, (e.ns.look n).isSome = true := by
  rcases hB.2 t ht with hc | ⟨hr, e, he⟩
  · exact h.fine.core t hc
  · exact ⟨e, he, (h.fine.low t e hr he).2⟩

theorem bound_of {m : Mod} {s : St} {B : Got} {uses : List Name} (h : Has m s B)
    (hu : uses.all (· ∈ B.names) = true) : bound (own m s) uses = true := by
  simp only [bound, List.all_eq_true, decide_eq_true_eq] at hu ⊢
  exact fun n hn => h.1 n (hu n hn)

theorem busy_assign {m : Mod} (hcore : core m = false) {s : St} (h : Busy m s) {B : Got}
    (hB : Has m s B) (x : Name) (v : Val) : ∃ s', assign m x v s = (none, s') ∧ Busy m s' ∧
      Adds m.rank (m.rank + 1) s s' ∧ s'.runs = s.runs ∧ Has m s' ⟨x :: B.names, B.mods⟩ := by
  have hne : ∀ u, core u = true → u ≠ m := fun u hu e => by subst e; rw [hcore] at hu; cases hu
  have hbound : ∀ {s' : St}, own m s' = (own m s).set x v →
      (∀ u, u.rank < m.rank → s'.mods u = s.mods u) → Has m s' ⟨x :: B.names, B.mods⟩ := by
    intro s' hs' hmods
    refine ⟨fun n hn => ?_, fun t ht => (hB.2 t ht).imp id fun ⟨hr, e, he⟩ =>
      ⟨hr, e, (hmods t hr).trans he⟩⟩
    rw [hs', Ns.look_set]
    split
    · rfl
    · rename_i hx
      exact hB.1 n ((List.mem_cons.1 hn).resolve_left fun e => hx e.symm)
  refine ⟨_, rfl, ?_⟩
  cases hc : isC m with
  | true =>
    have hs : setOwn m ((own m s).set x v) s = setStat s m ((own m s).set x v) := by
      simp only [setOwn, hc, if_true]
    rw [hs]
    refine ⟨⟨⟨h.fine.low, h.fine.runs, h.fine.core⟩, (fun h' => by rw [hc] at h'; cases h'), h.nowhere⟩,
      ⟨fun u hu => ⟨rfl, ?_, rfl⟩, fun _ _ _ h => h⟩, rfl, hbound ?_ fun _ _ => rfl⟩
    · exact if_neg fun e => by subst e; exact Nat.not_succ_le_self _ hu
    · simp only [own, hc, if_true, setStat]
  | false =>
    obtain ⟨ns0, h0⟩ := h.here hc
    have hs : setOwn m ((own m s).set x v) s = setMod s m (some ⟨false, (own m s).set x v⟩) := by
      simp only [setOwn, hc, Bool.false_eq_true, if_false, h0]
    rw [hs]
    have hother : ∀ u, u ≠ m → (setMod s m (some ⟨false, (own m s).set x v⟩)).mods u = s.mods u :=
      fun u hu => if_neg hu
    have hlt : ∀ u, u.rank < m.rank → u ≠ m := fun u hu e => by subst e; exact Nat.lt_irrefl _ hu
    refine ⟨⟨⟨fun u e hu he => ?_, fun u hu => ?_, fun u hu => ?_⟩, fun _ => ⟨_, setMod_same _ _ _⟩,
      (fun h' => by rw [hc] at h'; cases h')⟩, ⟨fun u hu => ⟨hother u ?_, rfl, rfl⟩,
      fun u e hu he => ?_⟩, rfl, hbound ?_ fun u hu => hother u (hlt u hu)⟩
    · rw [hother u (hlt u hu)] at he
      exact h.fine.low u e hu he
    · rw [hother u (hlt u hu)]
      exact h.fine.runs u hu
    · rw [hother u (hne u hu)]
      exact h.fine.core u hu
    · exact fun e => by subst e; exact Nat.not_succ_le_self _ hu
    · rw [hother u (hlt u hu)]
      exact he
    · simp only [own, hc, Bool.false_eq_true, if_false, setMod_same]

theorem busy_call {env : Env} (hb : env.checkerBuilt = true → env.proxyBuilt = true) {m : Mod}
    {f : Mod → St → Out} (hf : Works env m.rank f) (hm : isC m = true → env.built m = true)
    {s : St} (h : Busy m s) {B : Got} (hB : Has m s B) {t : Mod} (ht : okT m t = true) :
    ∃ s', f t s = (none, s') ∧ Busy m s' ∧ Adds m.rank (m.rank + 1) s s' ∧ s'.runs m = s.runs m ∧
      Has m s' B ∧ (core t = true ∨ (t.rank < m.rank ∧ ∃ e, s'.mods t = some e)) ∧
      ∃ e, s'.mods t = some e ∧ ∀ n ∈ given t, (e.ns.look n).isSome = true := by
  have hcase : core t = true ∨ (t.rank < m.rank ∧ (isC t = true → env.built t = true)) := by
    simp only [okT, Bool.or_eq_true, Bool.and_eq_true, decide_eq_true_eq, Bool.not_eq_true'] at ht
    rcases ht with (ht | ⟨h1, h2⟩) | ⟨rfl, rfl⟩
    · exact .inl ht
    · exact .inr ⟨h1, fun hc => by rw [h2] at hc; cases hc⟩
    · exact .inr ⟨by decide, fun _ => hb (hm rfl)⟩
  rcases hcase with hcore | ⟨hr, hbuilt⟩
  · obtain ⟨e, he, hg⟩ := h.fine.core t hcore
    exact ⟨s, hf.present t s (by rw [he]; rfl), h, .rfl, rfl, hB, .inl hcore, e, he, hg⟩
  · have hfine : Fine (t.rank + 1) s :=
      ⟨fun u e hu => h.fine.low u e (Nat.lt_of_lt_of_le hu hr),
        fun u hu => h.fine.runs u (Nat.lt_of_lt_of_le hu hr), h.fine.core⟩
    obtain ⟨s', h1, h2, h3, h4⟩ := hf.run t s hr hbuilt hfine
    have habove : ∀ u, ¬ u.rank < t.rank + 1 → s'.mods u = s.mods u ∧ s'.stat u = s.stat u ∧
        s'.runs u = s.runs u := fun u hu => h3.above u (Nat.le_of_not_lt hu)
    have hmm := h3.above m hr
    have hown : own m s' = own m s := by simp only [own, hmm.1, hmm.2.1]
    refine ⟨s', h1, ⟨⟨fun u e hu he => ?_, fun u hu => ?_, h2.core⟩, ?_, ?_⟩, ⟨fun u hu => ?_, fun u e hu he => ?_⟩,
      hmm.2.2, ⟨?_, fun u hu => ?_⟩, .inr ⟨hr, ?_⟩, ?_⟩
    · by_cases hut : u.rank < t.rank + 1
      · exact h2.low u e hut he
      · rw [(habove u hut).1] at he
        exact h.fine.low u e hu he
    · by_cases hut : u.rank < t.rank + 1
      · exact h2.runs u hut
      · rw [(habove u hut).1, (habove u hut).2.2]
        exact h.fine.runs u hu
    · rw [hmm.1]
      exact h.here
    · rw [hmm.1]
      exact h.nowhere
    · exact h3.above u (Nat.le_trans (Nat.succ_le_succ (Nat.le_of_lt hr)) hu)
    · by_cases hut : u.rank < t.rank + 1
      · exact h3.kept u e hut he
      · rw [(habove u hut).1]
        exact he
    · intro n hn
      rw [hown]
      exact hB.1 n hn
    · refine (hB.2 u hu).imp id fun ⟨hu', e, he⟩ => ⟨hu', e, ?_⟩
      by_cases hut : u.rank < t.rank + 1
      · exact h3.kept u e hut he
      · rw [(habove u hut).1]
        exact he
    · exact Option.isSome_iff_exists.1 h4
    · cases he : s'.mods t with
      | none => rw [he] at h4; cases h4
      | some e => exact ⟨e, rfl, (h2.low t e (Nat.lt_succ_self _) he).2⟩

theorem busy_lines {env : Env} (hfault : ∀ n, env.fault n = none)
    (hb : env.checkerBuilt = true → env.proxyBuilt = true) {m : Mod} (hcore : core m = false)
    {f : Mod → St → Out} (hf : Works env m.rank f) (hm : isC m = true → env.built m = true)
    (ls : List Line) : ∀ {s : St} {B B' : Got}, Busy m s → Has m s B →
    clears m ls B = some B' → ∃ s', runLines env f m ls s = (none, s') ∧ Busy m s' ∧
      Adds m.rank (m.rank + 1) s s' ∧ s'.runs m = s.runs m ∧ Has m s' B' := by
  induction ls with
  | nil =>
    intro s B B' h hB hc
    cases hc
    exact ⟨s, rfl, h, .rfl, rfl, hB⟩
  | cons l r ih =>
    intro s B B' h hB hc
    suffices hline : ∀ {B1 : Got}, clear m B l = some B1 → ∃ s', runLine env f m l s = (none, s') ∧
        Busy m s' ∧ Adds m.rank (m.rank + 1) s s' ∧ s'.runs m = s.runs m ∧ Has m s' B1 by
      simp only [clears] at hc
      split at hc
      · rename_i B1 hB1
        obtain ⟨s1, h1, h2, h3, h4, h5⟩ := hline hB1
        obtain ⟨s2, h6, h7, h8, h9, h10⟩ := ih h2 h5 hc
        refine ⟨s2, ?_, h7, h3.trans h8, h9.trans h4, h10⟩
        simp only [runLines, h1]
        exact h6
      · cases hc
    intro B1 hl
    simp only [clear] at hl
    split at hl
    · cases hl
    rename_i hg
    have hg : l.guard = [] := Classical.not_not.1 hg
    have h' : Busy m { s with steps := s.steps + 1 } := ⟨⟨h.fine.low, h.fine.runs, h.fine.core⟩, h.here, h.nowhere⟩
    have hB' : Has m { s with steps := s.steps + 1 } B := hB
    have h0 : Adds m.rank (m.rank + 1) s { s with steps := s.steps + 1 } :=
      ⟨fun _ _ => ⟨rfl, rfl, rfl⟩, fun _ _ _ h => h⟩
    suffices hst : ∃ s', runStmt f m l.stmt { s with steps := s.steps + 1 } = (none, s') ∧ Busy m s' ∧
        Adds m.rank (m.rank + 1) { s with steps := s.steps + 1 } s' ∧ s'.runs m = s.runs m ∧ Has m s' B1 by
      obtain ⟨s1, h1, h2, h3, h4, h5⟩ := hst
      refine ⟨s1, ?_, h2, h0.trans h3, h4, h5⟩
      simp only [runLine, hg, holds, hfault]
      exact h1
    have hr0 : ({ s with steps := s.steps + 1 } : St).runs m = s.runs m := rfl
    generalize ({ s with steps := s.steps + 1 } : St) = s0 at h' hB' h0 hr0 ⊢
    cases hst : l.stmt with
    | work uses =>
      simp only [hst] at hl
      split at hl
      · rename_i hu
        cases hl
        exact ⟨s0, by simp only [runStmt, bound_of hB' hu, if_true], h', .rfl, hr0, hB'⟩
      · cases hl
    | new x what uses =>
      simp only [hst] at hl
      split at hl
      · rename_i hu
        cases hl
        obtain ⟨s1, h1, h2, h3, h4, h5⟩ := busy_assign hcore h' hB' x (.made m what (s0.runs m))
        exact ⟨s1, by simp only [runStmt, bound_of hB' hu, if_true, h1], h2, h3,
          (congrFun h4 m).trans hr0, h5⟩
      · cases hl
    | static x =>
      simp only [hst] at hl
      cases hl
      obtain ⟨s1, h1, h2, h3, h4, h5⟩ := busy_assign hcore h' hB' x (.static m x)
      exact ⟨s1, h1, h2, h3, (congrFun h4 m).trans hr0, h5⟩
    | imp t =>
      simp only [hst] at hl
      split at hl
      · rename_i ht
        cases hl
        obtain ⟨s1, h1, h2, h3, h4, h5, h6, -⟩ := busy_call hb hf hm h' hB' ht
        refine ⟨s1, h1, h2, h3, h4.trans hr0, h5.1, fun u hu => ?_⟩
        rcases List.mem_cons.1 hu with rfl | hu
        · exact h6
        · exact h5.2 u hu
      · cases hl
    | frm t n x =>
      simp only [hst] at hl
      split at hl
      · rename_i ht
        simp only [Bool.and_eq_true, decide_eq_true_eq] at ht
        cases hl
        obtain ⟨s1, h1, h2, h3, h4, h5, -, e, he, hg⟩ := busy_call hb hf hm h' hB' ht.1
        cases hv : e.ns.look n with
        | none => exact absurd (hg n ht.2) (by rw [hv]; exact Bool.false_ne_true)
        | some v =>
          obtain ⟨s2, h6, h7, h8, h9, h10⟩ := busy_assign hcore h2 h5 x v
          refine ⟨s2, ?_, h7, h3.trans h8, ((congrFun h9 m).trans h4).trans hr0, h10⟩
          simp only [runStmt, h1, peek, he, hv, assign?]
          exact h6
      · cases hl
    | attr t n x =>
      simp only [hst] at hl
      split at hl
      · rename_i ht
        simp only [Bool.and_eq_true, decide_eq_true_eq] at ht
        cases hl
        obtain ⟨e, he, hg⟩ := has_mod h' hB' ht.1
        cases hv : e.ns.look n with
        | none => exact absurd (hg n ht.2) (by rw [hv]; exact Bool.false_ne_true)
        | some v =>
          obtain ⟨s2, h6, h7, h8, h9, h10⟩ := busy_assign hcore h' hB' x v
          refine ⟨s2, ?_, h7, h8, (congrFun h9 m).trans hr0, h10⟩
          simp only [runStmt, peek, he, hv, assign?]
          exact h6
      · cases hl
    | sub t x =>
      simp only [hst] at hl
      split at hl
      · rename_i ht
        cases hl
        obtain ⟨s1, h1, h2, h3, h4, h5, -⟩ := busy_call hb hf hm h' hB' ht
        obtain ⟨s2, h6, h7, h8, h9, h10⟩ := busy_assign hcore h2 h5 x (.module t)
        refine ⟨s2, ?_, h7, h3.trans h8, ((congrFun h9 m).trans h4).trans hr0, h10⟩
        simp only [runStmt, h1]
        exact h6
      · cases hl
    | _ => simp only [hst] at hl; cases hl

end ZS.Imp
