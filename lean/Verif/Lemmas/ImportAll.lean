import Verif.Lemmas.ImportOk

/-! Without faults every import succeeds: whole imports. -/

namespace ZS.Imp

theorem only_some {l : List Name} : ∀ {ns : Ns} {n : Name}, n ∈ l →
    (ns.look n).isSome = true → ((ns.only l).look n).isSome = true
  | [], _, _, h => by cases h
  | (x, v) :: r, n, hn, h => by
    by_cases hx : x = n
    · subst hx
      simp only [Ns.only, hn, if_true, Ns.look]
      rfl
    · simp only [Ns.look, hx, if_false] at h
      by_cases hl : x ∈ l
      · simp only [Ns.only, hl, if_true, Ns.look, hx, if_false]
        exact only_some hn h
      · simp only [Ns.only, hl, if_false]
        exact only_some hn h

theorem load_ok {env : Env} (hfault : ∀ n, env.fault n = none)
    (hb : env.checkerBuilt = true → env.proxyBuilt = true) {m : Mod} (hcore : core m = false)
    {f : Mod → St → Out} (hf : Works env m.rank f) (hm : isC m = true → env.built m = true)
    {s : St} (h : Fine (m.rank + 1) s) (habs : s.mods m = none) :
    ∃ s', load env f m s = (none, s') ∧ Fine (m.rank + 1) s' ∧
      Adds (m.rank + 1) (m.rank + 1) s s' ∧ (s'.mods m).isSome = true := by
  obtain ⟨B, hB, hgiven, hexp⟩ := clears_all env.pure env.watch m hcore
  have hlt : ∀ u : Mod, u.rank < m.rank → u ≠ m := fun u hu e => by subst e; exact Nat.lt_irrefl _ hu
  have hne : ∀ u, core u = true → u ≠ m := fun u hu e => by subst e; rw [hcore] at hu; cases hu
  have hr0 : s.runs m = 0 := by rw [h.runs m (Nat.lt_succ_self _), habs]; rfl
  have hgt : ∀ u : Mod, m.rank + 1 ≤ u.rank → u ≠ m := fun u hu e => by
    subst e; exact Nat.not_succ_le_self _ hu
  have hstep : ∀ u : Mod, u.rank < m.rank + 1 → u ≠ m → u.rank < m.rank := fun u hu hn =>
    Nat.lt_of_le_of_ne (Nat.le_of_lt_succ hu) fun e => hn (rank_inj e)
  -- the state in which the body is started
  let s0 : St := if isC m then started s m else setMod (started s m) m (some ⟨false, []⟩)
  have h0mods : ∀ u, u ≠ m → s0.mods u = s.mods u := by
    intro u hu
    show (if isC m then started s m else setMod (started s m) m (some ⟨false, []⟩)).mods u = _
    split
    · rfl
    · exact if_neg hu
  have h0runs : ∀ u, u ≠ m → s0.runs u = s.runs u := by
    intro u hu
    show (if isC m then started s m else setMod (started s m) m (some ⟨false, []⟩)).runs u = _
    split <;> exact if_neg hu
  have h0run : s0.runs m = 1 := by
    show (if isC m then started s m else setMod (started s m) m (some ⟨false, []⟩)).runs m = _
    have : (started s m).runs m = 1 := by
      show (if m = m then s.runs m + 1 else s.runs m) = 1
      rw [if_pos rfl, hr0]
    split <;> exact this
  have h0stat : ∀ u, s0.stat u = s.stat u := by
    intro u
    show (if isC m then started s m else setMod (started s m) m (some ⟨false, []⟩)).stat u = _
    split <;> rfl
  have hbusy : Busy m s0 := by
    refine ⟨⟨fun u e hu he => ?_, fun u hu => ?_, fun u hu => ?_⟩, fun hc => ?_, fun hc => ?_⟩
    · rw [h0mods u (hlt u hu)] at he
      exact h.low u e (Nat.lt_succ_of_lt hu) he
    · rw [h0mods u (hlt u hu), h0runs u (hlt u hu)]
      exact h.runs u (Nat.lt_succ_of_lt hu)
    · rw [h0mods u (hne u hu)]
      exact h.core u hu
    · refine ⟨[], ?_⟩
      show (if isC m then started s m else setMod (started s m) m (some ⟨false, []⟩)).mods m = _
      rw [hc]
      exact setMod_same _ _ _
    · show (if isC m then started s m else setMod (started s m) m (some ⟨false, []⟩)).mods m = _
      rw [hc]
      exact habs
  have hhas : Has m s0 ⟨[], []⟩ := ⟨(fun _ h => nomatch h), (fun _ h => nomatch h)⟩
  obtain ⟨s1, h1, h2, h3, h4, h5⟩ := busy_lines hfault hb hcore hf hm _ hbusy hhas hB
  have hown : ∀ n ∈ given m, ((own m s1).look n).isSome = true := by
    simp only [List.all_eq_true, decide_eq_true_eq] at hgiven
    exact fun n hn => h5.1 n (hgiven n hn)
  -- the module is entered
  suffices key : ∀ ns : Ns, (∀ n ∈ given m, (ns.look n).isSome = true) →
      Fine (m.rank + 1) (setMod s1 m (some ⟨true, ns⟩)) ∧
      Adds (m.rank + 1) (m.rank + 1) s (setMod s1 m (some ⟨true, ns⟩)) ∧
      ((setMod s1 m (some ⟨true, ns⟩)).mods m).isSome = true by
    cases hc : isC m with
    | true =>
      refine ⟨_, ?_, key ((s1.stat m).only (exports m)) fun n hn => ?_⟩
      · simp only [load, hc, if_true, hm hc]
        rw [show started s m = s0 by show _ = (if isC m then _ else _); rw [hc]; rfl, h1]
      · refine only_some ?_ ?_
        · have := hexp hc
          simp only [List.all_eq_true, decide_eq_true_eq] at this
          exact this n hn
        · have := hown n hn
          simp only [own, hc, if_true] at this
          exact this
    | false =>
      refine ⟨_, ?_, key (own m s1) hown⟩
      simp only [load, hc, Bool.false_eq_true, if_false]
      rw [show setMod (started s m) m (some ⟨false, []⟩) = s0 by
        show _ = (if isC m then _ else _); rw [hc]; rfl, h1]
  intro ns hns
  have hother : ∀ u, u ≠ m → (setMod s1 m (some ⟨true, ns⟩)).mods u = s1.mods u := fun u hu => if_neg hu
  have hsame : (setMod s1 m (some ⟨true, ns⟩)).mods m = some ⟨true, ns⟩ := setMod_same _ _ _
  refine ⟨⟨fun u e hu he => ?_, fun u hu => ?_, fun u hu => ?_⟩, ⟨fun u hu => ⟨?_, ?_, ?_⟩, fun u e hu he => ?_⟩, ?_⟩
  · by_cases hum : u = m
    · subst hum
      rw [hsame] at he
      cases he
      exact ⟨rfl, hns⟩
    · rw [hother u hum] at he
      exact h2.fine.low u e (hstep u hu hum) he
  · by_cases hum : u = m
    · subst hum
      rw [hsame]
      exact h4.trans h0run
    · rw [hother u hum]
      exact h2.fine.runs u (hstep u hu hum)
  · rw [hother u (hne u hu)]
    exact h2.fine.core u hu
  · rw [hother u (hgt u hu), (h3.above u hu).1, h0mods u (hgt u hu)]
  · exact (h3.above u hu).2.1.trans (h0stat u)
  · exact (h3.above u hu).2.2.trans (h0runs u (hgt u hu))
  · have hum : u ≠ m := fun e => by subst e; rw [habs] at he; cases he
    rw [hother u hum]
    exact h3.kept u e (hstep u hu hum) ((h0mods u hum).trans he)
  · rw [hsame]
    rfl

theorem works {env : Env} (hfault : ∀ n, env.fault n = none)
    (hb : env.checkerBuilt = true → env.proxyBuilt = true) :
    ∀ fuel k, k < fuel → Works env k (imp env fuel)
  | 0, k, h => absurd h (Nat.not_lt_zero k)
  | fuel + 1, k, h => by
    refine ⟨fun t s ht hbuilt hs => ?_, fun t s ht => ?_⟩
    · cases hpres : s.mods t with
      | some e =>
        refine ⟨s, ?_, hs, .rfl, ?_⟩
        · simp only [imp, hpres, Option.isSome_some, if_true]
        · rw [hpres]
          rfl
      | none =>
        have hcore : core t = false := by
          cases hc : core t with
          | false => rfl
          | true =>
            obtain ⟨e, he, -⟩ := hs.core t hc
            rw [hpres] at he
            cases he
        have hpkg : t ≠ .pkg := fun e => by subst e; cases hcore
        obtain ⟨e, he, -⟩ := hs.core .pkg rfl
        have hw := works hfault hb fuel t.rank (Nat.lt_of_lt_of_le ht (Nat.le_of_lt_succ h))
        obtain ⟨s', h1, h2, h3, h4⟩ := load_ok hfault hb hcore hw hbuilt hs hpres
        refine ⟨s', ?_, h2, h3, h4⟩
        simp only [imp, hpres, Option.isSome_none, Bool.false_eq_true, if_false, hpkg, he,
          Option.isSome_some, if_true, h1]
    · simp only [imp, ht, if_true]

/-! ### The first import -/

def allMods : List Mod :=
  [.i18n, .compat, .cproxy, .interfaces, .defs, .proxy, .cchecker, .checker, .decorator,
   .simplepolicies, .management, .permission, .protectclass, .zcml, .testing, .adapter,
   .metaconfigure, .metadirectives, .pkg]

theorem mem_allMods (m : Mod) : m ∈ allMods := by cases m <;> decide

def fineB (s : St) : Bool :=
  allMods.all fun u =>
    (match s.mods u with
      | some e => e.done && (given u).all (fun n => (e.ns.look n).isSome) && decide (s.runs u = 1)
      | none => !core u && decide (s.runs u = 0))

theorem fine_of {s : St} (h : fineB s = true) : Fine 19 s := by
  have hu : ∀ u, _ := fun u => List.all_eq_true.1 h u (mem_allMods u)
  refine ⟨fun u e _ he => ?_, fun u _ => ?_, fun u hc => ?_⟩
  · have := hu u
    rw [he] at this
    simp only [Bool.and_eq_true, List.all_eq_true] at this
    exact this.1
  · have := hu u
    cases he : s.mods u with
    | none =>
      rw [he] at this
      simp only [Bool.and_eq_true, decide_eq_true_eq] at this
      exact this.2
    | some e =>
      rw [he] at this
      simp only [Bool.and_eq_true, decide_eq_true_eq] at this
      exact this.2
  · have := hu u
    cases he : s.mods u with
    | none =>
      rw [he] at this
      simp only [Bool.and_eq_true, hc] at this
      cases this.1
    | some e =>
      rw [he] at this
      simp only [Bool.and_eq_true, List.all_eq_true] at this
      exact ⟨e, rfl, this.1.2⟩

def calm (p w a b : Bool) : Env := ⟨p, w, a, b, fun _ => none⟩

/-- Which implementation was chosen. -/
def chosen (s : St) (m : Mod) (b : Bool) : Bool :=
  match s.mods m with
  | some e => decide (e.ns.look "_c_available" = some (.flag b))
  | none => false

theorem first (p w a b : Bool) (hb : b = true → a = true) :
    (match load (calm p w a b) (imp (calm p w a b) 23) .pkg .fresh with
      | (none, s) => fineB s && (chosen s .proxy (!p && a) && chosen s .checker (!p && b))
      | _ => false) = true := by
  revert hb
  cases p <;> cases w <;> cases a <;> cases b <;> decide +kernel

/-- The state after `import zope.security` in a fresh interpreter. -/
def s0 (env : Env) : St := (load env (imp env 23) .pkg .fresh).2

theorem first_ok {env : Env} (hfault : ∀ n, env.fault n = none)
    (hb : env.checkerBuilt = true → env.proxyBuilt = true) :
    load env (imp env 23) .pkg .fresh = (none, s0 env) ∧ Fine 19 (s0 env) ∧
    chosen (s0 env) .proxy (!env.pure && env.proxyBuilt) = true ∧
    chosen (s0 env) .checker (!env.pure && env.checkerBuilt) = true := by
  have he : env = calm env.pure env.watch env.proxyBuilt env.checkerBuilt := by
    cases env
    simp only [calm, Env.mk.injEq, true_and]
    exact funext hfault
  have h := first env.pure env.watch env.proxyBuilt env.checkerBuilt hb
  rw [← he] at h
  split at h
  · rename_i s hs
    simp only [Bool.and_eq_true] at h
    exact ⟨Prod.ext (by rw [hs]) rfl, by rw [s0, hs]; exact ⟨fine_of h.1, h.2.1, h.2.2⟩⟩
  · cases h

/-- The module can be loaded: it is a Python module or was compiled. -/
def avail (env : Env) (m : Mod) : Prop := isC m = true → env.built m = true

theorem next {env : Env} (hfault : ∀ n, env.fault n = none)
    (hb : env.checkerBuilt = true → env.proxyBuilt = true) (m : Mod) {s : St} (h : Fine 19 s) :
    ∀ o : Out, o = (if (s.mods m).isSome then (none, s) else load env (imp env 23) m s) →
      Fine 19 o.2 ∧ (∀ u e, s.mods u = some e → o.2.mods u = some e) ∧
      (avail env m → o.1 = none ∧ (o.2.mods m).isSome = true) := by
  intro o ho
  split at ho
  · rename_i hp
    subst ho
    exact ⟨h, fun _ _ h => h, fun _ => ⟨rfl, hp⟩⟩
  · rename_i hp
    have habs : s.mods m = none := by
      cases he : s.mods m with
      | none => rfl
      | some e => rw [he] at hp; exact absurd rfl hp
    have hcore : core m = false := by
      cases hc : core m with
      | false => rfl
      | true =>
        obtain ⟨e, he, -⟩ := h.core m hc
        rw [habs] at he
        cases he
    have hr : m.rank < 19 := by cases m <;> decide
    by_cases ha : avail env m
    · obtain ⟨s', h1, h2, h3, h4⟩ := load_ok hfault hb hcore
        (works hfault hb 23 m.rank (Nat.lt_of_lt_of_le hr (by decide))) ha
        (⟨fun u e hu => h.low u e (Nat.lt_of_lt_of_le hu hr),
          fun u hu => h.runs u (Nat.lt_of_lt_of_le hu hr), h.core⟩) habs
      have hk : ∀ u e, s.mods u = some e → s'.mods u = some e := by
        intro u e he
        by_cases hu : u.rank < m.rank + 1
        · exact h3.kept u e hu he
        · rw [(h3.above u (Nat.le_of_not_lt hu)).1]
          exact he
      rw [ho, h1]
      refine ⟨⟨fun u e hu he => ?_, fun u hu => ?_, h2.core⟩, hk, fun _ => ⟨rfl, h4⟩⟩
      · by_cases hu' : u.rank < m.rank + 1
        · exact h2.low u e hu' he
        · rw [(h3.above u (Nat.le_of_not_lt hu')).1] at he
          exact h.low u e hu he
      · by_cases hu' : u.rank < m.rank + 1
        · exact h2.runs u hu'
        · rw [(h3.above u (Nat.le_of_not_lt hu')).1, (h3.above u (Nat.le_of_not_lt hu')).2.2]
          exact h.runs u hu
    · have hc : isC m = true ∧ env.built m = false := by
        simp only [avail, Classical.not_imp, Bool.not_eq_true] at ha
        exact ha
      have : o = (some .importError, s) := by
        rw [ho]
        simp only [load, hc.1, hc.2, if_true, Bool.false_eq_true, if_false]
      subst this
      exact ⟨h, fun _ _ h => h, fun h => absurd h ha⟩

theorem imp_step (env : Env) (fuel : Nat) (m : Mod) (s : St) : imp env (fuel + 1) m s =
    (if (s.mods m).isSome then (none, s)
      else if m = .pkg then load env (imp env fuel) .pkg s
      else if (s.mods .pkg).isSome then load env (imp env fuel) m s
      else
        match load env (imp env fuel) .pkg s with
        | (none, s') =>
            if (s'.mods m).isSome then (none, s') else load env (imp env fuel) m s'
        | r => r) := rfl

/-- Nothing has been imported, or the package has. -/
def Calm (env : Env) (s : St) : Prop :=
  s = .fresh ∨ (Fine 19 s ∧ ∀ u e, (s0 env).mods u = some e → s.mods u = some e)

theorem imp_calm {env : Env} (hfault : ∀ n, env.fault n = none)
    (hb : env.checkerBuilt = true → env.proxyBuilt = true) (m : Mod) {s : St} (h : Calm env s) :
    (Fine 19 (imp env depth m s).2 ∧
      ∀ u e, (s0 env).mods u = some e → (imp env depth m s).2.mods u = some e) ∧
    (avail env m → (imp env depth m s).1 = none ∧ ((imp env depth m s).2.mods m).isSome = true) := by
  have hwarm : ∀ {s : St}, Fine 19 s →
      imp env depth m s = (if (s.mods m).isSome then (none, s) else load env (imp env 23) m s) := by
    intro s h
    obtain ⟨e, he, -⟩ := h.core .pkg rfl
    rw [show imp env depth m s = imp env (23 + 1) m s from rfl, imp_step]
    by_cases hm : m = .pkg
    · subst hm
      simp only [he, Option.isSome_some, if_true]
    · simp only [hm, if_false, he, Option.isSome_some, if_true]
  rcases h with rfl | ⟨h, hk⟩
  · obtain ⟨h1, h2, -⟩ := first_ok hfault hb
    have : imp env depth m .fresh =
        (if ((s0 env).mods m).isSome then (none, s0 env) else load env (imp env 23) m (s0 env)) := by
      have hn : ∀ u, St.fresh.mods u = none := fun _ => rfl
      rw [show imp env depth m .fresh = imp env (23 + 1) m .fresh from rfl, imp_step]
      by_cases hm : m = .pkg
      · subst hm
        obtain ⟨e, he, -⟩ := h2.core .pkg rfl
        simp only [hn, Option.isSome_none, Bool.false_eq_true, if_false, if_true, h1, he,
          Option.isSome_some]
      · simp only [hn, Option.isSome_none, Bool.false_eq_true, if_false, hm, h1]
    obtain ⟨h3, h4, h5⟩ := next hfault hb m h2 _ this
    exact ⟨⟨h3, h4⟩, h5⟩
  · obtain ⟨h3, h4, h5⟩ := next hfault hb m h _ (hwarm h)
    exact ⟨⟨h3, fun u e he => h4 u e (hk u e he)⟩, h5⟩

theorem imports_calm {env : Env} (hfault : ∀ n, env.fault n = none)
    (hb : env.checkerBuilt = true → env.proxyBuilt = true) (l : List Mod) {s : St}
    (h : Calm env s) : Calm env (imports env l s) := by
  induction l generalizing s with
  | nil => exact h
  | cons m r ih => exact ih (.inr (imp_calm hfault hb m h).1)

/-- Every module of the package is executed at most once. -/
theorem Calm.once {env : Env} {s : St} (h : Calm env s) (m : Mod) : s.runs m ≤ 1 := by
  rcases h with rfl | ⟨h, -⟩
  · exact Nat.zero_le _
  · rw [h.runs m (by cases m <;> decide)]
    split
    · exact Nat.le_refl _
    · exact Nat.zero_le _

end ZS.Imp
