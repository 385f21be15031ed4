import Verif.Model.Moment
import Verif.Props.Mediation
import Verif.Props.Combined
import Verif.Examples.World

/-!
# C71: checks while declarations change
-/

namespace ZS.Props
open Spec
variable {A : Type}

/-- From `m` to `m'` declarations only become more permissive: names are declared public, names become available by default,
the interaction grants more, `__iter__` goes away. -/
structure Grows (m m' : Moment) : Prop where
  dicts : ∀ g n, (m'.dicts g).get? n = (m.dicts g).get? n ∨ (m'.dicts g).get? n = some publicV
  avail : ∀ n, n ∈ m.avail → n ∈ m'.avail
  answer : ∀ p, m'.answer p = m.answer p ∨ m'.answer p = .ok true
  iter : m'.iter = m.iter ∨ m'.iter = .ok false

theorem Grows.refl (m : Moment) : Grows m m := ⟨fun _ _ => .inl rfl, fun _ h => h, fun _ => .inl rfl, .inl rfl⟩

/-- Declaring a name public is growth. -/
theorem grows_declare (m : Moment) (g : Nat) (n : Name) :
    Grows m { m with dicts := fun k => if k = g then (m.dicts k).set n publicV else m.dicts k } := by
  refine ⟨fun k x => ?_, fun _ h => h, fun _ => .inl rfl, .inl rfl⟩
  simp only
  split
  · rw [PyDict.get?_set]
    split
    · exact .inr rfl
    · exact .inl rfl
  · exact .inl rfl

/-- The outcome of a check at one moment, undisturbed. -/
def atMoment (impl : Impl) (write : Bool) (m : Moment) (c o : Val) (n : Name) : Res Unit :=
  (chainT impl write (fun _ => m) 0 c o n).1

/-! ## One checker -/

theorem lookupI_grows {m m' : Moment} (h : Grows m m') (impl : Impl) (g : Nat) (n : Name) :
    lookupI impl (m'.dicts g) n = lookupI impl (m.dicts g) n ∨ lookupI impl (m'.dicts g) n = some publicV := by
  rcases h.dicts g n with h | h
  · left; cases impl <;> simp [lookupI, lookupPy, h]
  · right; cases impl <;> simp [lookupI, lookupPy, h, publicV]

theorem isEmpty_lookup (impl : Impl) (d : PyDict Name Val) (n : Name) (h : d.isEmpty = true) : lookupI impl d n = none := by
  have : d = [] := List.isEmpty_iff.mp h
  subst this
  cases impl <;> rfl

/-- The lookup sees the dictionary of one moment; whatever number the access has. -/
theorem lookT_value (impl : Impl) (write : Bool) (σ : Nat → Moment) (t g : Nat) (n : Name) :
    ∃ u, t ≤ u ∧ (lookT impl write σ t g n).2 = u + 1 ∧ (lookT impl write σ t g n).1 = lookupI impl ((σ u).dicts g) n := by
  unfold lookT
  split
  · split
    · next h => exact ⟨t, Nat.le_refl _, rfl, (isEmpty_lookup impl _ n h).symm⟩
    · exact ⟨t + 1, Nat.le_succ _, rfl, rfl⟩
  · exact ⟨t, Nat.le_refl _, rfl, rfl⟩

/-- The outcome of a plain check from what its accesses saw. -/
def plainOut (impl : Impl) (write : Bool) (look : Option Val) (ans : Val → Res Bool) (avail : List Name) (iter : Res Bool)
    (o : Val) (n : Name) : Res Unit :=
  match look with
  | some p => if p = publicV then .ok () else
    match ans p with
    | .ok true => .ok ()
    | .ok false => .err (.unauthorized o n p)
    | .err e => .err e
    | .diverge => .diverge
  | none =>
    if write then .err (.forbidden n o)
    else if impl = .c ∧ isDunder n = false then .err (.forbidden n o)
    else if n ∈ avail then .ok ()
    else if n ≠ "__iter__" then .err (.forbidden n o)
    else match iter with
      | .ok true => .err (.forbidden n o)
      | .ok false => .ok ()
      | .err e => .err e
      | .diverge => .diverge

theorem plainT_out (impl : Impl) (write : Bool) (σ : Nat → Moment) (t g : Nat) (o : Val) (n : Name) :
    ∃ u, t ≤ u ∧ (plainT impl write σ t g o n).1
      = plainOut impl write (lookupI impl ((σ u).dicts g) n) (σ (u + 1)).answer (σ (u + 1)).avail (σ (u + 2)).iter o n := by
  obtain ⟨u, hu0, hu1, hu⟩ := lookT_value impl write σ t g n
  refine ⟨u, hu0, ?_⟩
  rw [← hu]
  unfold plainT plainOut askT
  rcases h : lookT impl write σ t g n with ⟨x, t1⟩
  rw [h] at hu1
  simp only at hu1
  subst hu1
  cases x with
  | some p =>
    simp only
    split
    · rfl
    · split <;> simp_all
  | none =>
    simp only
    split
    · rfl
    · split
      · rfl
      · split
        · rfl
        · split
          · rfl
          · split <;> simp_all

theorem plainT_at (impl : Impl) (write : Bool) (m : Moment) (t g : Nat) (o : Val) (n : Name) :
    (plainT impl write (fun _ => m) t g o n).1 = plainOut impl write (lookupI impl (m.dicts g) n) m.answer m.avail m.iter o n := by
  obtain ⟨_, _, h⟩ := plainT_out impl write (fun _ => m) t g o n
  exact h

/-- With more permissive data the outcome is a grant or the same. -/
theorem plainOut_lower (impl : Impl) (write : Bool) {m a b c : Moment} (ha : Grows m a) (hb : Grows m b) (hc : Grows m c) (g : Nat) (o : Val) (n : Name) :
    plainOut impl write (lookupI impl (a.dicts g) n) b.answer b.avail c.iter o n = .ok ()
    ∨ plainOut impl write (lookupI impl (a.dicts g) n) b.answer b.avail c.iter o n
      = plainOut impl write (lookupI impl (m.dicts g) n) m.answer m.avail m.iter o n := by
  rcases lookupI_grows ha impl g n with h | h
  · rw [h]
    cases hl : lookupI impl (m.dicts g) n with
    | some p =>
      simp only [plainOut]
      by_cases hp : p = publicV
      · simp [hp]
      · rw [if_neg hp, if_neg hp]
        rcases hb.answer p with h2 | h2
        · rw [h2]; exact .inr rfl
        · rw [h2]; exact .inl rfl
    | none =>
      simp only [plainOut]
      split
      · exact .inr rfl
      · split
        · exact .inr rfl
        · by_cases hm : n ∈ m.avail
          · rw [if_pos (hb.avail n hm)]; exact .inl rfl
          · rw [if_neg hm]
            split
            · exact .inl rfl
            · split
              · exact .inr rfl
              · rcases hc.iter with h2 | h2
                · rw [h2]; exact .inr rfl
                · rw [h2]; exact .inl rfl
  · rw [h]; left; simp [plainOut]

/-- A grant on less permissive data remains one. -/
theorem plainOut_upper (impl : Impl) (write : Bool) {m a b c : Moment} (ha : Grows a m) (hb : Grows b m) (hc : Grows c m) (g : Nat) (o : Val) (n : Name)
    (h0 : plainOut impl write (lookupI impl (a.dicts g) n) b.answer b.avail c.iter o n = .ok ()) :
    plainOut impl write (lookupI impl (m.dicts g) n) m.answer m.avail m.iter o n = .ok () := by
  rcases lookupI_grows ha impl g n with h | h
  · rw [h]
    cases hl : lookupI impl (a.dicts g) n with
    | some p =>
      rw [hl] at h0
      simp only [plainOut] at h0 ⊢
      by_cases hp : p = publicV
      · simp [hp]
      · rw [if_neg hp] at h0 ⊢
        rcases hb.answer p with h2 | h2
        · rw [h2]; exact h0
        · rw [h2]
    | none =>
      rw [hl] at h0
      simp only [plainOut] at h0 ⊢
      split at h0
      · cases h0
      · next hw =>
        rw [if_neg hw]
        split at h0
        · cases h0
        · next hi =>
          rw [if_neg hi]
          by_cases hm : n ∈ b.avail
          · rw [if_pos (hb.avail n hm)]
          · rw [if_neg hm] at h0
            by_cases hm2 : n ∈ m.avail
            · rw [if_pos hm2]
            · rw [if_neg hm2]
              split at h0
              · cases h0
              · next hit =>
                rw [if_neg hit]
                rcases hc.iter with h2 | h2
                · rw [h2]; exact h0
                · rw [h2]
  · rw [h]; simp [plainOut]

/-! ## Chains -/

theorem atMoment_checker (impl : Impl) (write : Bool) (m : Moment) (i g st : Nat) (o : Val) (n : Name) (t : Nat) :
    (chainT impl write (fun _ => m) t (.checker i g st) o n).1
      = plainOut impl write (lookupI impl (m.dicts (if write then st else g)) n) m.answer m.avail m.iter o n :=
  plainT_at impl write m t _ o n

/-- Combining two outcomes (checker.py:563-588). -/
def orElse (a b : Res Unit) : Res Unit :=
  match a with
  | .err e =>
    if e.isForbidden then b
    else if e.isUnauthorized then
      match b with
      | .err e2 => if e2.isForbidden then .err e else .err e2
      | r => r
    else .err e
  | r => r

theorem chainT_combined (impl : Impl) (write : Bool) (σ : Nat → Moment) (t i g st : Nat) (c2 o : Val) (n : Name) :
    (chainT impl write σ t (.combined i g st c2) o n).1
      = orElse (plainT impl write σ t (if write then st else g) o n).1
          (chainT impl write σ (plainT impl write σ t (if write then st else g) o n).2 c2 o n).1 := by
  simp only [chainT, orElse]
  rcases plainT impl write σ t (if write then st else g) o n with ⟨r, t1⟩
  cases r with
  | ok _ => rfl
  | diverge => rfl
  | err e =>
    simp only
    split
    · rfl
    · split
      · rcases chainT impl write σ t1 c2 o n with ⟨r2, t2⟩
        cases r2 with
        | ok _ => rfl
        | diverge => rfl
        | err e2 => simp only; split <;> rfl
      · rfl

theorem const_time (impl : Impl) (write : Bool) (m : Moment) (c o : Val) (n : Name) (t t' : Nat) :
    (chainT impl write (fun _ => m) t c o n).1 = (chainT impl write (fun _ => m) t' c o n).1 := by
  induction c generalizing t t' with
  | checker i g st => rw [atMoment_checker, atMoment_checker]
  | combined i g st c2 ih =>
    rw [chainT_combined, chainT_combined, plainT_at, plainT_at, ih]
  | _ => rfl

/-- Refusals are the package's two exceptions. -/
theorem orElse_ok_right (a b : Res Unit) (h : orElse a b = .ok ()) : a = .ok () ∨ (b = .ok () ∧ ∃ e, a = .err e ∧ (e.isForbidden = true ∨ e.isUnauthorized = true)) := by
  unfold orElse at h
  cases a with
  | ok _ => exact .inl rfl
  | diverge => cases h
  | err e =>
    simp only at h
    split at h
    · next he => exact .inr ⟨h, e, rfl, .inl he⟩
    · split at h
      · next he =>
        cases b with
        | ok _ => exact .inr ⟨rfl, e, rfl, .inr he⟩
        | diverge => cases h
        | err e2 => simp only at h; split at h <;> cases h
      · cases h

theorem orElse_ok_of (a : Res Unit) (h : a = .ok () ∨ ∃ e, a = .err e ∧ (e.isForbidden = true ∨ e.isUnauthorized = true)) :
    orElse a (.ok ()) = .ok () := by
  rcases h with rfl | ⟨e, rfl, h | h⟩
  · rfl
  · simp [orElse, h]
  · simp only [orElse, h, if_true]; split <;> rfl

theorem between_all (impl : Impl) (write : Bool) (σ : Nat → Moment) (m m' : Moment) (hl : ∀ u, Grows m (σ u)) (hu : ∀ u, Grows (σ u) m')
    (hmm : Grows m m') (c : Val) (hc : Ordinary c) (o : Val) (n : Name) (t : Nat) :
    ((chainT impl write σ t c o n).1 = .ok () ∨ (chainT impl write σ t c o n).1 = atMoment impl write m c o n)
    ∧ ((chainT impl write σ t c o n).1 = .ok () → atMoment impl write m' c o n = .ok ()) := by
  have plainL : ∀ t g, (plainT impl write σ t g o n).1 = .ok () ∨ (plainT impl write σ t g o n).1
      = plainOut impl write (lookupI impl (m.dicts g) n) m.answer m.avail m.iter o n := by
    intro t g
    obtain ⟨u, _, h⟩ := plainT_out impl write σ t g o n
    rw [h]
    exact plainOut_lower impl write (hl _) (hl _) (hl _) g o n
  have plainU : ∀ t g, (plainT impl write σ t g o n).1 = .ok () →
      plainOut impl write (lookupI impl (m'.dicts g) n) m'.answer m'.avail m'.iter o n = .ok () := by
    intro t g h0
    obtain ⟨u, _, h⟩ := plainT_out impl write σ t g o n
    rw [h] at h0
    exact plainOut_upper impl write (hu _) (hu _) (hu _) g o n h0
  induction c generalizing t with
  | checker i g st =>
    unfold atMoment
    rw [atMoment_checker, atMoment_checker]
    exact ⟨plainL t _, plainU t _⟩
  | combined i g st c2 ih =>
    obtain ⟨ih1, ih2⟩ := ih hc ((plainT impl write σ t (if write then st else g) o n).2)
    have e : ∀ x, atMoment impl write x (.combined i g st c2) o n
        = orElse (plainOut impl write (lookupI impl (x.dicts (if write then st else g)) n) x.answer x.avail x.iter o n)
            (atMoment impl write x c2 o n) := by
      intro x
      unfold atMoment
      rw [chainT_combined, plainT_at, const_time]
    rw [chainT_combined, e, e]
    have hL := plainL t (if write then st else g)
    have hU := plainU t (if write then st else g)
    have hmm' := plainOut_lower impl write hmm hmm hmm (if write then st else g) o n
    generalize (plainT impl write σ t (if write then st else g) o n).1 = a at *
    generalize (chainT impl write σ (plainT impl write σ t (if write then st else g) o n).2 c2 o n).1 = b at *
    constructor
    · rcases hL with rfl | rfl
      · exact .inl rfl
      · rcases ih1 with rfl | rfl
        · by_cases hk : orElse (plainOut impl write (lookupI impl (m.dicts (if write then st else g)) n) m.answer m.avail m.iter o n) (.ok ()) = .ok ()
          · exact .inl hk
          · right
            -- an exception that is no refusal comes out whatever the second checker says
            generalize plainOut impl write (lookupI impl (m.dicts (if write then st else g)) n) m.answer m.avail m.iter o n = x at *
            cases x with
            | ok _ => exact absurd rfl hk
            | diverge => rfl
            | err e =>
              simp only [orElse] at hk ⊢
              split at hk
              · exact absurd rfl hk
              · next h1 =>
                split at hk
                · exact absurd rfl hk
                · next h2 => rw [if_neg h1, if_neg h2, if_neg h1, if_neg h2]
        · exact .inr rfl
    · intro h
      rcases orElse_ok_right _ _ h with ha | ⟨hb, e, ha, he⟩
      · rw [hU ha]; rfl
      · rw [ih2 hb]
        apply orElse_ok_of
        rcases hL with h1 | h1
        · exact absurd (ha.symm.trans h1) (by simp)
        · rw [ha] at h1
          rcases hmm' with h2 | h2
          · exact .inl h2
          · exact .inr ⟨e, h2.trans h1.symm, he⟩
  | _ => exact absurd hc id

/-! ## Only the moments of the accesses matter -/

theorem lookT_grow (impl : Impl) (write : Bool) (σ : Nat → Moment) (t g : Nat) (n : Name) : t < (lookT impl write σ t g n).2 := by
  obtain ⟨u, h, h', _⟩ := lookT_value impl write σ t g n
  omega

theorem plainT_mono (impl : Impl) (write : Bool) (σ : Nat → Moment) (t g : Nat) (o : Val) (n : Name) :
    (lookT impl write σ t g n).2 ≤ (plainT impl write σ t g o n).2 := by
  unfold plainT askT
  rcases lookT impl write σ t g n with ⟨x, t1⟩
  cases x with
  | some p => simp only; split <;> (try split) <;> simp
  | none => simp only; split <;> (try split) <;> (try split) <;> (try split) <;> (try split) <;> simp

theorem plainT_grow (impl : Impl) (write : Bool) (σ : Nat → Moment) (t g : Nat) (o : Val) (n : Name) :
    t < (plainT impl write σ t g o n).2 :=
  Nat.lt_of_lt_of_le (lookT_grow impl write σ t g n) (plainT_mono impl write σ t g o n)

theorem lookT_congr (impl : Impl) (write : Bool) (σ τ : Nat → Moment) (t g : Nat) (n : Name)
    (h : ∀ u, t ≤ u → u < (lookT impl write σ t g n).2 → τ u = σ u) : lookT impl write τ t g n = lookT impl write σ t g n := by
  unfold lookT at h ⊢
  split
  · next hw =>
    rw [if_pos hw] at h
    by_cases he : ((σ t).dicts g).isEmpty = true
    · rw [if_pos he] at h
      rw [h t (Nat.le_refl _) (Nat.lt_succ_self _), if_pos he, if_pos he]
    · rw [if_neg he] at h
      simp only at h
      rw [h t (Nat.le_refl _) (by omega), h (t + 1) (by omega) (by omega)]
  · next hw =>
    rw [if_neg hw] at h
    rw [h t (Nat.le_refl _) (Nat.lt_succ_self _)]

theorem plainT_congr (impl : Impl) (write : Bool) (σ τ : Nat → Moment) (t g : Nat) (o : Val) (n : Name)
    (h : ∀ u, t ≤ u → u < (plainT impl write σ t g o n).2 → τ u = σ u) : plainT impl write τ t g o n = plainT impl write σ t g o n := by
  have hm := plainT_mono impl write σ t g o n
  have h0 := lookT_grow impl write σ t g n
  have hl := lookT_congr impl write σ τ t g n (fun u h1 h2 => h u h1 (Nat.lt_of_lt_of_le h2 hm))
  have e : ∀ ρ, plainT impl write ρ t g o n = (match lookT impl write ρ t g n with
    | (some p, t1) => if p = publicV then (.ok (), t1) else askT ρ t1 p o n
    | (none, t1) =>
      if write then (.err (.forbidden n o), t1)
      else if impl = .c ∧ isDunder n = false then (.err (.forbidden n o), t1)
      else if n ∈ (ρ t1).avail then (.ok (), t1 + 1)
      else if n ≠ "__iter__" then (.err (.forbidden n o), t1 + 1)
      else match (ρ (t1 + 1)).iter with
        | .ok true => (.err (.forbidden n o), t1 + 2)
        | .ok false => (.ok (), t1 + 2)
        | .err e => (.err e, t1 + 2)
        | .diverge => (.diverge, t1 + 2)) := fun _ => rfl
  rw [e τ, hl]
  rw [e σ] at h ⊢
  generalize lookT impl write σ t g n = q at *
  obtain ⟨x, t1⟩ := q
  simp only at h0
  cases x with
  | some p =>
    simp only at h ⊢
    split
    · rfl
    · next hp =>
      rw [if_neg hp] at h
      unfold askT at h ⊢
      have : τ t1 = σ t1 := h t1 (by omega) (by split <;> simp)
      rw [this]
  | none =>
    simp only at h ⊢
    split
    · rfl
    · next hw =>
      rw [if_neg hw] at h
      split
      · rfl
      · next hd =>
        rw [if_neg hd] at h
        have ha : τ t1 = σ t1 := h t1 (by omega) (by split <;> (try split) <;> (try split) <;> simp)
        rw [ha]
        split
        · rfl
        · next hav =>
          rw [if_neg hav] at h
          split
          · rfl
          · next hit =>
            rw [if_neg hit] at h
            have hb : τ (t1 + 1) = σ (t1 + 1) := h (t1 + 1) (by omega) (by split <;> simp)
            rw [hb]

theorem chainT_mono (impl : Impl) (write : Bool) (σ : Nat → Moment) (c : Val) (o : Val) (n : Name) (t : Nat) :
    t ≤ (chainT impl write σ t c o n).2 := by
  induction c generalizing t with
  | checker i g st => exact Nat.le_of_lt (plainT_grow impl write σ t _ o n)
  | combined i g st c2 ih =>
    have h1 := plainT_grow impl write σ t (if write then st else g) o n
    simp only [chainT]
    generalize plainT impl write σ t (if write then st else g) o n = q at *
    obtain ⟨r, t1⟩ := q
    simp only at h1
    have h2 := ih t1
    cases r with
    | ok _ => exact Nat.le_of_lt h1
    | diverge => exact Nat.le_of_lt h1
    | err e =>
      simp only
      split
      · omega
      · split
        · generalize chainT impl write σ t1 c2 o n = q at *
          obtain ⟨r2, t2⟩ := q
          simp only at h2
          cases r2 with
          | ok _ => simp only; omega
          | diverge => simp only; omega
          | err e2 => simp only; split <;> (simp only; omega)
        · exact Nat.le_of_lt h1
  | _ => exact Nat.le_refl _

theorem chainT_congr (impl : Impl) (write : Bool) (σ τ : Nat → Moment) (c : Val) (o : Val) (n : Name) (t : Nat)
    (h : ∀ u, t ≤ u → u < (chainT impl write σ t c o n).2 → τ u = σ u) : chainT impl write τ t c o n = chainT impl write σ t c o n := by
  induction c generalizing t with
  | checker i g st => exact plainT_congr impl write σ τ t _ o n h
  | combined i g st c2 ih =>
    have hg := plainT_grow impl write σ t (if write then st else g) o n
    have hp : (plainT impl write σ t (if write then st else g) o n).2 ≤ (chainT impl write σ t (.combined i g st c2) o n).2 := by
      simp only [chainT]
      rcases plainT impl write σ t (if write then st else g) o n with ⟨r, t1⟩
      have h2 := chainT_mono impl write σ c2 o n t1
      cases r with
      | ok _ => exact Nat.le_refl _
      | diverge => exact Nat.le_refl _
      | err e =>
        simp only
        split
        · exact h2
        · split
          · generalize chainT impl write σ t1 c2 o n = q at *
            obtain ⟨r2, t2⟩ := q
            cases r2 with
            | ok _ => exact h2
            | diverge => exact h2
            | err e2 => simp only; split <;> exact h2
          · exact Nat.le_refl _
    have hpl := plainT_congr impl write σ τ t (if write then st else g) o n (fun u a b => h u a (Nat.lt_of_lt_of_le b hp))
    simp only [chainT] at h ⊢
    rw [hpl]
    generalize plainT impl write σ t (if write then st else g) o n = q at *
    obtain ⟨r, t1⟩ := q
    simp only at hg
    cases r with
    | ok _ => rfl
    | diverge => rfl
    | err e =>
      simp only at h ⊢
      by_cases hf : e.isForbidden = true
      · rw [if_pos hf] at h ⊢
        rw [if_pos hf]
        exact ih t1 (fun u a b => h u (by omega) b)
      · rw [if_neg hf] at h ⊢
        rw [if_neg hf]
        by_cases hu : e.isUnauthorized = true
        · rw [if_pos hu] at h ⊢
          rw [if_pos hu]
          have : chainT impl write τ t1 c2 o n = chainT impl write σ t1 c2 o n := by
            apply ih t1
            intro u a b
            apply h u (by omega)
            generalize chainT impl write σ t1 c2 o n = q at b ⊢
            obtain ⟨r2, t2⟩ := q
            cases r2 with
            | ok _ => exact b
            | diverge => exact b
            | err e2 => simp only; split <;> exact b
          rw [this]
        · rw [if_neg hu, if_neg hu]
  | _ => rfl

/-! ## C71 Checks while declarations change -/

theorem Grows.trans {a b c : Moment} (h : Grows a b) (h' : Grows b c) : Grows a c where
  dicts g n := by
    rcases h'.dicts g n with e | e
    · rw [e]; exact h.dicts g n
    · exact .inr e
  avail n hn := h'.avail n (h.avail n hn)
  answer p := by
    rcases h'.answer p with e | e
    · rw [e]; exact h.answer p
    · exact .inr e
  iter := by
    rcases h'.iter with e | e
    · rw [e]; exact h.iter
    · exact .inr e

theorem chainT_starts (impl : Impl) (write : Bool) (σ : Nat → Moment) (c : Val) (hc : Ordinary c) (o : Val) (n : Name) :
    0 < (chainT impl write σ 0 c o n).2 := by
  cases c with
  | checker i g st => exact plainT_grow impl write σ 0 _ o n
  | combined i g st c2 =>
    have h1 := plainT_grow impl write σ 0 (if write then st else g) o n
    simp only [chainT]
    generalize plainT impl write σ 0 (if write then st else g) o n = q at *
    obtain ⟨r, t1⟩ := q
    simp only at h1
    have h2 := chainT_mono impl write σ c2 o n t1
    cases r with
    | ok _ => exact h1
    | diverge => exact h1
    | err e =>
      simp only
      split
      · omega
      · split
        · generalize chainT impl write σ t1 c2 o n = q at *
          obtain ⟨r2, t2⟩ := q
          simp only at h2
          cases r2 with
          | ok _ => simp only; omega
          | diverge => simp only; omega
          | err e2 => simp only; split <;> (simp only; omega)
        · exact h1
  | _ => exact absurd hc id

/-- What a check started in a state sees if nothing changes meanwhile. -/
def seenIn (X : Ctx A) (H : Val → Name → M A Bool) (o : Val) (s : St A) : Moment where
  dicts := s.dicts
  avail := s.avail
  answer p := (askInteraction X p o s).1
  iter := (H o "__iter__" s).1

theorem permit_run (X : Ctx A) (p o : Val) (n : Name) (s : St A) (h : (askInteraction X p o s).2 = s) :
    (do let b ← askInteraction X p o
        if b then pure () else M.throw (.unauthorized o n p) : M A Unit) s
      = (match (askInteraction X p o s).1 with
        | .ok true => .ok ()
        | .ok false => .err (.unauthorized o n p)
        | .err e => .err e
        | .diverge => .diverge, s) := by
  rw [run_bind]
  rcases hr : askInteraction X p o s with ⟨r, s1⟩
  rw [hr] at h
  simp only at h
  subst h
  cases r with
  | ok b => cases b <;> rfl
  | err e => rfl
  | diverge => rfl

theorem iter_run (H : Val → Name → M A Bool) (o : Val) (s : St A) (h : (H o "__iter__" s).2 = s) :
    (do let b ← H o "__iter__"
        if b then M.throw (.forbidden "__iter__" o) else pure () : M A Unit) s
      = (match (H o "__iter__" s).1 with
        | .ok true => .err (.forbidden "__iter__" o)
        | .ok false => .ok ()
        | .err e => .err e
        | .diverge => .diverge, s) := by
  rw [run_bind]
  rcases hr : H o "__iter__" s with ⟨r, s1⟩
  rw [hr] at h
  simp only at h
  subst h
  cases r with
  | ok b => cases b <;> rfl
  | err e => rfl
  | diverge => rfl

theorem plainCheck_out (X : Ctx A) (H : Val → Name → M A Bool) (g : Nat) (o : Val) (n : Name) (s : St A)
    (ha : ∀ p, (askInteraction X p o s).2 = s) (hi : n = "__iter__" → (H o "__iter__" s).2 = s) :
    plainCheck X H g o n s = (plainOut X.impl false (lookupI X.impl (s.dicts g) n) (fun p => (askInteraction X p o s).1) s.avail
      (H o "__iter__" s).1 o n, s) := by
  cases hX : X.impl with
  | py =>
    have : plainCheck X H g o n s = plainCheckPy X H g o n s := by unfold plainCheck; rw [hX]
    rw [this]
    show (match lookupPy (s.dicts g) n with
      | some p => if p = publicV then pure () else do
          let b ← askInteraction X p o
          if b then pure () else M.throw (.unauthorized o n p)
      | none => if n ∈ s.avail then pure () else if n ≠ "__iter__" then M.throw (.forbidden n o) else do
          let h ← H o n
          if h then M.throw (.forbidden n o) else pure () : M A Unit) s = _
    simp only [lookupI]
    cases lookupPy (s.dicts g) n with
    | some p =>
      simp only [plainOut]
      by_cases hp : p = publicV
      · rw [if_pos hp, if_pos hp]; rfl
      · rw [if_neg hp, if_neg hp]; exact permit_run X p o n s (ha p)
    | none =>
      simp only [plainOut]
      rw [if_neg (show ¬ false = true by simp), if_neg (show ¬ (Impl.py = Impl.c ∧ isDunder n = false) by simp)]
      by_cases h1 : n ∈ s.avail
      · rw [if_pos h1, if_pos h1]; rfl
      · rw [if_neg h1, if_neg h1]
        by_cases h2 : n ≠ "__iter__"
        · rw [if_pos h2, if_pos h2]; rfl
        · rw [if_neg h2, if_neg h2]
          have h2 : n = "__iter__" := Classical.not_not.mp h2
          subst h2
          exact iter_run H o s (hi rfl)
  | c =>
    have : plainCheck X H g o n s = plainCheckC X H g o n s := by unfold plainCheck; rw [hX]
    rw [this]
    show (match (s.dicts g).get? n with
      | some p => if p = publicV then pure () else do
          let b ← askInteraction X p o
          if b then pure () else M.throw (.unauthorized o n p)
      | none => if isDunder n then
          if n ∈ s.avail then pure () else if n = "__iter__" then do
            let h ← H o n
            if h then M.throw (.forbidden n o) else pure ()
          else M.throw (.forbidden n o)
        else M.throw (.forbidden n o) : M A Unit) s = _
    simp only [lookupI]
    cases (s.dicts g).get? n with
    | some p =>
      simp only [plainOut]
      by_cases hp : p = publicV
      · rw [if_pos hp, if_pos hp]; rfl
      · rw [if_neg hp, if_neg hp]; exact permit_run X p o n s (ha p)
    | none =>
      simp only [plainOut]
      rw [if_neg (show ¬ false = true by simp)]
      cases hd : isDunder n with
      | false => rfl
      | true =>
        rw [if_pos (show true = true from rfl), if_neg (show ¬ (True ∧ true = false) by simp)]
        by_cases h1 : n ∈ s.avail
        · rw [if_pos h1, if_pos h1]; rfl
        · rw [if_neg h1, if_neg h1]
          by_cases h2 : n = "__iter__"
          · rw [if_pos h2, if_neg (fun h => h h2)]
            subst h2
            exact iter_run H o s (hi rfl)
          · rw [if_neg h2, if_pos h2]; rfl

theorem plainSetattr_out (X : Ctx A) (H : Val → Name → M A Bool) (g : Nat) (o : Val) (n : Name) (s : St A)
    (ha : ∀ p, (askInteraction X p o s).2 = s) :
    plainSetattr X g o n s = (plainOut X.impl true (lookupI X.impl (s.dicts g) n) (fun p => (askInteraction X p o s).1) s.avail
      (H o "__iter__" s).1 o n, s) := by
  have hm : ∀ x : Option Val, (match x with
      | some p => if p = publicV then pure () else do
          let b ← askInteraction X p o
          if b then pure () else M.throw (.unauthorized o n p)
      | none => M.throw (.forbidden n o) : M A Unit) s
      = (plainOut X.impl true x (fun p => (askInteraction X p o s).1) s.avail (H o "__iter__" s).1 o n, s) := by
    intro x
    cases x with
    | some p =>
      simp only [plainOut]
      by_cases hp : p = publicV
      · rw [if_pos hp, if_pos hp]; rfl
      · rw [if_neg hp, if_neg hp]; exact permit_run X p o n s (ha p)
    | none => rfl
  cases hX : X.impl with
  | py =>
    have : plainSetattr X g o n s = plainSetattrPy X g o n s := by unfold plainSetattr; rw [hX]
    rw [this]
    have h := hm (if (s.dicts g).isEmpty then none else lookupPy (s.dicts g) n)
    rw [hX] at h
    refine Eq.trans h ?_
    congr 2
    split
    · next he => exact (isEmpty_lookup .py _ n he).symm
    · rfl
  | c =>
    have : plainSetattr X g o n s = plainSetattrC X g o n s := by unfold plainSetattr; rw [hX]
    rw [this]
    have h := hm ((s.dicts g).get? n)
    rw [hX] at h
    exact h

theorem combine_orElse (x y : M A Unit) (s : St A) (a b : Res Unit) (hx : x s = (a, s)) (hy : y s = (b, s)) :
    combine x y s = (orElse a b, s) := by
  unfold combine
  rw [hx]
  cases a with
  | ok _ => rfl
  | diverge => rfl
  | err e =>
    simp only [orElse]
    by_cases h1 : e.isForbidden = true
    · rw [if_pos h1, if_pos h1, hy]
    · rw [if_neg h1, if_neg h1]
      by_cases h2 : e.isUnauthorized = true
      · rw [if_pos h2, if_pos h2, run_tryCatch, hy]
        cases b with
        | ok _ => rfl
        | diverge => rfl
        | err e2 =>
          simp only
          cases Exn.isForbidden e2 <;> rfl
      · rw [if_neg h2, if_neg h2]

/-- The built-in policies answer without effects. -/
theorem ask_pure (X : Ctx A) (p o : Val) (s : St A) (hb : BuiltinOnly X s) : (askInteraction X p o s).2 = s := by
  show ((match (s.threads X.tid).interaction with
    | none => M.throw (.attributeError "interaction")
    | some ix => do
      let r ← ixCheckPermission X ix p o
      pure (truthy X.W r) : M A Bool) s).2 = s
  cases hi : (s.threads X.tid).interaction with
  | none => rfl
  | some ix =>
    obtain ⟨i, rfl⟩ := hb ix hi
    show (((if (s.ixs i).permissive then pure (.bool true) else pure (.bool (paranoidCheck s i p)) : M A Val) >>= fun r =>
      (pure (truthy X.W r) : M A Bool)) s).2 = s
    by_cases h : (s.ixs i).permissive = true
    · rw [if_pos h]; rfl
    · rw [if_neg h]; rfl

/-- A check nobody disturbs is the check of the rest of the model. -/
theorem C71_undisturbed (X : Ctx A) (H : Val → Name → M A Bool) (k : CheckKind) (c o : Val) (hc : Ordinary c) (n : Name) (s : St A)
    (ha : ∀ p, (askInteraction X p o s).2 = s) (hi : n = "__iter__" → (H o "__iter__" s).2 = s) :
    chkCheck X H k c o n s = (atMoment X.impl (decide (k = .setattr)) (seenIn X H o s) c o n, s) := by
  have hw : ∀ g, plainSetattr X g o n s = (plainOut X.impl true (lookupI X.impl ((seenIn X H o s).dicts g) n) (seenIn X H o s).answer
      (seenIn X H o s).avail (seenIn X H o s).iter o n, s) := fun g => plainSetattr_out X H g o n s ha
  have hr : ∀ g, plainCheck X H g o n s = (plainOut X.impl false (lookupI X.impl ((seenIn X H o s).dicts g) n) (seenIn X H o s).answer
      (seenIn X H o s).avail (seenIn X H o s).iter o n, s) := fun g => plainCheck_out X H g o n s ha hi
  induction c generalizing k with
  | checker i g st =>
    unfold atMoment
    rw [atMoment_checker]
    cases k
    · exact hr g
    · exact hr g
    · exact hw st
  | combined i g st c2 ih =>
    have e : ∀ w, atMoment X.impl w (seenIn X H o s) (.combined i g st c2) o n = orElse (plainT X.impl w (fun _ => seenIn X H o s) 0 (if w then st else g) o n).1
        (atMoment X.impl w (seenIn X H o s) c2 o n) := by
      intro w
      unfold atMoment
      rw [chainT_combined, const_time]
    rw [e, plainT_at]
    cases k
    · exact combine_orElse _ _ s _ _ (hr g) (ih .check hc)
    · exact combine_orElse _ _ s _ _ (hr g) (ih .check hc)
    · exact combine_orElse _ _ s _ _ (hw st) (ih .setattr hc)
  | _ => exact absurd hc id

/-- If all a check sees, at whatever moments, lies between two states of the declarations, the later more permissive than the
earlier, its outcome is that of a check made at the beginning, or it is granted; and it is granted only if a check made at the end is. -/
theorem C71_between (impl : Impl) (write : Bool) (σ : Nat → Moment) (m m' : Moment) (c : Val) (hc : Ordinary c) (o : Val) (n : Name)
    (h : ∀ u, u < (chainT impl write σ 0 c o n).2 → Grows m (σ u) ∧ Grows (σ u) m') :
    ((chainT impl write σ 0 c o n).1 = .ok () ∨ (chainT impl write σ 0 c o n).1 = atMoment impl write m c o n)
    ∧ ((chainT impl write σ 0 c o n).1 = .ok () → atMoment impl write m' c o n = .ok ()) := by
  have h0 := h 0 (chainT_starts impl write σ c hc o n)
  have hmm := h0.1.trans h0.2
  have e := chainT_congr impl write σ (fun u => if u < (chainT impl write σ 0 c o n).2 then σ u else m) c o n 0
    (fun u _ hu => if_pos hu)
  rw [← e]
  apply between_all impl write _ m m' _ _ hmm c hc o n 0
  · intro u
    split
    · next hu => exact (h u hu).1
    · exact Grows.refl m
  · intro u
    split
    · next hu => exact (h u hu).2
    · exact hmm

/-- The dictionaries a check consults, in order. -/
def dictsOf (write : Bool) : Val → List Nat
  | .checker _ g st => [if write then st else g]
  | .combined _ g st c2 => (if write then st else g) :: dictsOf write c2
  | _ => []

/-- The name is not declared: missing, or for `CheckerPy` with `None` for its permission. -/
def Undeclared (impl : Impl) (m : Moment) (g : Nat) (n : Name) : Prop :=
  (m.dicts g).get? n = none ∨ impl = .py ∧ (m.dicts g).get? n = some .none

/-- What two or three consecutive moments say in favour of access. -/
inductive Reason (impl : Impl) (write : Bool) (a b c : Moment) (g : Nat) (n : Name) : Prop
  | isPublic : (a.dicts g).get? n = some publicV → Reason impl write a b c g n
  | granted (p : Val) : (a.dicts g).get? n = some p → b.answer p = .ok true → Reason impl write a b c g n
  | byDefault : write = false → Undeclared impl a g n → n ∈ b.avail → Reason impl write a b c g n
  | noIter : write = false → Undeclared impl a g n → n = "__iter__" → c.iter = .ok false → Reason impl write a b c g n

theorem lookupI_none {impl : Impl} {d : PyDict Name Val} {n : Name} (h : lookupI impl d n = none) :
    d.get? n = none ∨ impl = .py ∧ d.get? n = some .none := by
  cases impl with
  | c => exact .inl h
  | py =>
    simp only [lookupI, lookupPy] at h
    cases hd : d.get? n with
    | none => exact .inl rfl
    | some v =>
      rw [hd] at h
      cases v <;> first | exact .inr ⟨rfl, rfl⟩ | cases h

theorem lookupI_some {impl : Impl} {d : PyDict Name Val} {n : Name} {p : Val} (h : lookupI impl d n = some p) : d.get? n = some p := by
  cases impl with
  | c => exact h
  | py =>
    simp only [lookupI, lookupPy] at h
    cases hd : d.get? n with
    | none => rw [hd] at h; cases h
    | some v =>
      rw [hd] at h
      cases v <;> first | exact h | cases h

theorem plainOut_reason {impl : Impl} {write : Bool} {a b c : Moment} {g : Nat} {o : Val} {n : Name}
    (h : plainOut impl write (lookupI impl (a.dicts g) n) b.answer b.avail c.iter o n = .ok ()) : Reason impl write a b c g n := by
  cases hl : lookupI impl (a.dicts g) n with
  | some p =>
    rw [hl] at h
    simp only [plainOut] at h
    split at h
    · next hp => exact .isPublic (hp ▸ lookupI_some hl)
    · refine .granted p (lookupI_some hl) ?_
      split at h <;> first | assumption | cases h
  | none =>
    rw [hl] at h
    simp only [plainOut] at h
    split at h
    · cases h
    · next hw =>
      have hw : write = false := by simpa using hw
      split at h
      · cases h
      · split at h
        · next ha => exact .byDefault hw (lookupI_none hl) ha
        · split at h
          · cases h
          · next hi =>
            refine .noIter hw (lookupI_none hl) (Classical.not_not.mp hi) ?_
            split at h <;> first | assumption | cases h

/-- Whatever other threads do during a check, access is granted only for a reason that held, and held in consecutive accesses: a permission
and its being granted are never taken from different dictionaries, nor with another access between. -/
theorem C71_justified (impl : Impl) (write : Bool) (σ : Nat → Moment) (c : Val) (hc : Ordinary c) (o : Val) (n : Name) (t : Nat)
    (h : (chainT impl write σ t c o n).1 = .ok ()) :
    ∃ g, g ∈ dictsOf write c ∧ ∃ u, t ≤ u ∧ Reason impl write (σ u) (σ (u + 1)) (σ (u + 2)) g n := by
  induction c generalizing t with
  | checker i g st =>
    obtain ⟨u, hu, e⟩ := plainT_out impl write σ t (if write then st else g) o n
    exact ⟨_, List.mem_singleton.mpr rfl, u, hu, plainOut_reason (e.symm.trans h)⟩
  | combined i g st c2 ih =>
    rw [chainT_combined] at h
    rcases orElse_ok_right _ _ h with h | ⟨h, _⟩
    · obtain ⟨u, hu, e⟩ := plainT_out impl write σ t (if write then st else g) o n
      exact ⟨_, List.mem_cons_self, u, hu, plainOut_reason (e.symm.trans h)⟩
    · obtain ⟨g', hg', u, hu, hr⟩ := ih hc _ h
      have := plainT_grow impl write σ t (if write then st else g) o n
      exact ⟨g', List.mem_cons_of_mem _ hg', u, by omega, hr⟩
  | _ => exact absurd hc id

/-- A policy (and an object asked for `__iter__`) that answers yes or no. -/
def Answers (m : Moment) : Prop := (∀ p, ∃ b, m.answer p = .ok b) ∧ ∃ b, m.iter = .ok b

theorem plainOut_answers {impl : Impl} {write : Bool} {look : Option Val} {b c : Moment} {o : Val} {n : Name} (hb : Answers b) (hc : Answers c) :
    plainOut impl write look b.answer b.avail c.iter o n = .ok ()
    ∨ ∃ e, plainOut impl write look b.answer b.avail c.iter o n = .err e ∧ (e.isForbidden = true ∨ e.isUnauthorized = true) := by
  cases look with
  | some p =>
    simp only [plainOut]
    split
    · exact .inl rfl
    · obtain ⟨x, hx⟩ := hb.1 p
      rw [hx]
      cases x
      · exact .inr ⟨_, rfl, .inr rfl⟩
      · exact .inl rfl
  | none =>
    simp only [plainOut]
    split
    · exact .inr ⟨_, rfl, .inl rfl⟩
    · split
      · exact .inr ⟨_, rfl, .inl rfl⟩
      · split
        · exact .inl rfl
        · split
          · exact .inr ⟨_, rfl, .inl rfl⟩
          · obtain ⟨x, hx⟩ := hc.2
            rw [hx]
            cases x
            · exact .inl rfl
            · exact .inr ⟨_, rfl, .inl rfl⟩

/-- What one of the checkers declares public throughout is granted, whatever else changes meanwhile. -/
theorem C71_steady (impl : Impl) (write : Bool) (σ : Nat → Moment) (c : Val) (o : Val) (n : Name) (g : Nat)
    (hg : g ∈ dictsOf write c) (hpub : ∀ u, ((σ u).dicts g).get? n = some publicV) (ha : ∀ u, Answers (σ u)) (t : Nat) :
    (chainT impl write σ t c o n).1 = .ok () := by
  have here : ∀ t, (plainT impl write σ t g o n).1 = .ok () := by
    intro t
    obtain ⟨u, _, e⟩ := plainT_out impl write σ t g o n
    have : lookupI impl ((σ u).dicts g) n = some publicV := by cases impl <;> simp [lookupI, lookupPy, hpub u, publicV]
    rw [e, this]
    simp [plainOut]
  induction c generalizing t with
  | checker i g' st =>
    simp only [dictsOf, List.mem_singleton] at hg
    subst hg
    exact here t
  | combined i g' st c2 ih =>
    rw [chainT_combined]
    simp only [dictsOf, List.mem_cons] at hg
    rcases hg with hg | hg
    · subst hg
      rw [here t]
      rfl
    · rw [ih hg]
      obtain ⟨u, _, e⟩ := plainT_out impl write σ t (if write then st else g') o n
      rw [e]
      exact orElse_ok_of _ (plainOut_answers (ha _) (ha _))
  | _ => cases hg

/-- The name is declared public in exactly one of two dictionaries. -/
def movedAt (first : Bool) : Moment where
  dicts g := if g = (if first then 1 else 3) then [("x", publicV)] else []
  avail := []
  answer _ := .ok true
  iter := .ok true

/-- A check is not atomic: a declaration moved from the second of two combined checkers to the first is missed, although at
every single moment a check would be granted. -/
theorem C71_moved (impl : Impl) (o : Val) : ∃ σ : Nat → Moment, ∃ c, Ordinary c ∧
    (∀ u, atMoment impl false (σ u) c o "x" = .ok ()) ∧ (chainT impl false σ 0 c o "x").1 = .err (.forbidden "x" o) := by
  refine ⟨fun u => movedAt (0 < u), .combined 10 1 2 (.checker 11 3 4), trivial, ?_, ?_⟩
  · intro u
    unfold atMoment
    cases h : decide (0 < u) <;> cases impl <;>
      simp [h, movedAt, chainT, plainT, lookT, lookupI, lookupPy, PyDict.get?, Exn.isForbidden, isDunder, publicV]
  · cases impl <;> simp [movedAt, chainT, plainT, lookT, lookupI, lookupPy, Exn.isForbidden, isDunder, publicV]

section examples

/-- Before: the second dictionary asks for a permission nobody has.  After: the first declares the name public. -/
def declBefore : Moment where
  dicts g := if g = 3 then [("x", Ex.view)] else []
  avail := []
  answer _ := .ok false
  iter := .ok true

def declAfter : Moment := { declBefore with dicts := fun k => if k = 1 then (declBefore.dicts k).set "x" publicV else declBefore.dicts k }

def declPair : Val := .combined 10 1 2 (.checker 11 3 4)

/-- Declared between the two lookups: the outcome is that of before. -/
example (impl : Impl) (o : Val) :
    (chainT impl false (fun u => if u < 1 then declBefore else declAfter) 0 declPair o "x").1 = .err (.unauthorized o "x" Ex.view)
    ∧ atMoment impl false declBefore declPair o "x" = .err (.unauthorized o "x" Ex.view) ∧ atMoment impl false declAfter declPair o "x" = .ok () := by
  cases impl <;> simp [atMoment, declPair, declBefore, declAfter, chainT, plainT, askT, lookT, lookupI, lookupPy, PyDict.get?, PyDict.set, Exn.isForbidden,
    isDunder, publicV, Ex.view]

/-- The hypotheses of `C71_between` hold of it. -/
example (impl : Impl) (o : Val) : ∀ u, u < (chainT impl false (fun u => if u < 1 then declBefore else declAfter) 0 declPair o "x").2 →
    Grows declBefore ((fun u => if u < 1 then declBefore else declAfter) u) ∧ Grows ((fun u => if u < 1 then declBefore else declAfter) u) declAfter := by
  intro u _
  have h : Grows declBefore declAfter := grows_declare declBefore 1 "x"
  by_cases hu : u < 1
  · simp only [hu, if_true]; exact ⟨Grows.refl _, h⟩
  · simp only [hu, if_false]; exact ⟨h, Grows.refl _⟩

/-- A check that is granted, as `C71_justified` supposes, though only at its last access. -/
example (impl : Impl) (o : Val) : (chainT impl false
    (fun u => if u < 1 then declBefore else { declBefore with answer := fun _ => .ok true }) 0 declPair o "x").1 = .ok () := by
  cases impl <;> simp [declPair, declBefore, chainT, plainT, askT, lookT, lookupI, lookupPy, PyDict.get?, Exn.isForbidden, isDunder, publicV, Ex.view]

/-- `C71_steady`: the second checker declares the name public while the first changes at every access. -/
example (impl : Impl) (o : Val) : (chainT impl false
    (fun u => { declBefore with dicts := fun g => if g = 3 then [("x", publicV)] else if u % 2 = 0 then [("x", Ex.view)] else [] }) 0 declPair o "x").1 = .ok () := by
  refine C71_steady impl false _ declPair o "x" 3 ?_ ?_ ?_ 0
  · simp [declPair, dictsOf]
  · intro u; rfl
  · intro u; exact ⟨fun _ => ⟨false, rfl⟩, true, rfl⟩

/-- `C71_undisturbed`, without an interaction and with `ParanoidSecurityPolicy`. -/
example (impl : Impl) (n : Name) (h : n ≠ "__iter__") (ix : Option Val) (hix : ix = none ∨ ix = some (.ix 1)) :
    chkCheck (Ex.X impl) (hasattrX (Ex.X impl)) .getattr Ex.c1 (.obj 1) n (Ex.s1 ix)
      = (atMoment impl false (seenIn (Ex.X impl) (hasattrX (Ex.X impl)) (.obj 1) (Ex.s1 ix)) Ex.c1 (.obj 1) n, Ex.s1 ix) := by
  refine C71_undisturbed (Ex.X impl) _ .getattr Ex.c1 (.obj 1) trivial n _ (fun p => ask_pure _ p _ _ ?_) (fun e => absurd e h)
  intro i hi
  have : ix = some i := hi
  rcases hix with e | e
  · rw [e] at this; cases this
  · rw [e] at this; cases this; exact ⟨1, rfl⟩

end examples

end ZS.Props
