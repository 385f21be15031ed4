import Verif.Model.Protect
import Verif.Lemmas.Dict
import Verif.Spec.Protect

/-!
# Lemmas about the declaration functions
-/

namespace ZS
open Spec
variable {A : Type}

/-- The class or module with a given registry key. -/
def keyVal : Key → Val
  | .ty t => .type t
  | .mod m => .module m

theorem definable_keyVal (k : Key) : definable (keyVal k) = some k := by cases k <;> rfl

theorem definable_some {t : Val} {k : Key} (h : definable t = some k) : t = keyVal k := by
  cases t <;> simp [definable] at h <;> subst h <;> rfl

/-- The dictionaries a registry entry refers to exist. -/
def Heap (s : St A) : Prop :=
  ∀ k c g st, s.reg.get? k = some c → checkerDicts c = some (g, st) → g < s.nextId ∧ st < s.nextId

/-- The dictionaries of the checker registered for `k` are its own: different from each other and
from those of every other registered checker. -/
def Apart (s : St A) (k : Key) : Prop :=
  ∀ c g st, s.reg.get? k = some c → checkerDicts c = some (g, st) →
    g ≠ st ∧ ∀ k' c' g' st', k' ≠ k → s.reg.get? k' = some c' → checkerDicts c' = some (g', st') →
      g ≠ g' ∧ g ≠ st' ∧ st ≠ g' ∧ st ≠ st'

/-- What a new registration by `getOrCreate` leaves. -/
def created (s : St A) (k : Key) : St A :=
  { s with
    nextId := s.nextId + 3
    dicts := fun i => if i = s.nextId + 1 then [] else if i = s.nextId then [] else s.dicts i
    reg := s.reg.set k (.checker (s.nextId + 2) s.nextId (s.nextId + 1)) }

theorem getOrCreate_new (s : St A) (k : Key) (h : s.reg.get? k = none) :
    getOrCreate (keyVal k) s = (.ok (.checker (s.nextId + 2) s.nextId (s.nextId + 1)), created s k) := by
  simp [getOrCreate, definable_keyVal, getCheckerFor, h, newDict, newChecker, defineChecker, run_bind,
    PyDict.mem, created]

theorem getOrCreate_old (s : St A) (k : Key) (c : Val) (h : s.reg.get? k = some c) (hc : c ≠ .none) :
    getOrCreate (keyVal k) s = (.ok c, s) := by
  simp [getOrCreate, definable_keyVal, getCheckerFor, h, run_bind, hc]

theorem getOrCreate_none (s : St A) (k : Key) (h : s.reg.get? k = some .none) :
    ∃ e s', getOrCreate (keyVal k) s = (.err e, s') ∧ s'.reg = s.reg ∧ s.nextId ≤ s'.nextId
      ∧ ∀ i, i < s.nextId → s'.dicts i = s.dicts i := by
  refine ⟨.duplication (keyVal k), { s with
      nextId := s.nextId + 3
      dicts := fun i => if i = s.nextId + 1 then [] else if i = s.nextId then [] else s.dicts i },
    by simp [getOrCreate, definable_keyVal, getCheckerFor, h, newDict, newChecker, defineChecker, run_bind,
      PyDict.mem], rfl, Nat.le_add_right _ _, ?_⟩
  intro i hi
  simp only
  rw [if_neg (by omega), if_neg (by omega)]

/-- The declaration function of a kind. -/
def declare (w : Bool) (t : Val) (n : Name) (p : Val) : M A Unit :=
  if w then protectSetAttribute t n p else protectName t n p

/-- The dictionary of a kind. -/
def side (w : Bool) (g st : Nat) : Nat := if w then st else g

theorem declare_ok (w : Bool) (s s1 : St A) (t : Val) (n : Name) (p c : Val) (g st : Nat)
    (h : getOrCreate t s = (.ok c, s1)) (hd : checkerDicts c = some (g, st)) :
    declare w t n p s = (.ok (), { s1 with
      dicts := fun i => if i = side w g st then (s1.dicts (side w g st)).set n (translate p) else s1.dicts i }) := by
  cases w <;> simp [declare, protectName, protectSetAttribute, run_bind, h, hd, dictSet, side]

theorem declare_bad (w : Bool) (s s1 : St A) (t : Val) (n : Name) (p c : Val)
    (h : getOrCreate t s = (.ok c, s1)) (hd : checkerDicts c = none) :
    ∃ e, declare w t n p s = (.err e, s1) := by
  cases w <;> simp [declare, protectName, protectSetAttribute, run_bind, h, hd]

theorem declare_err (w : Bool) (s s1 : St A) (t : Val) (n : Name) (p : Val) (e : Exn)
    (h : getOrCreate t s = (.err e, s1)) : declare w t n p s = (.err e, s1) := by
  cases w <;> simp [declare, protectName, protectSetAttribute, run_bind, h]

theorem heap_created {s : St A} (h : Heap s) (k : Key) : Heap (created s k) := by
  intro k' c g st hk hd
  simp only [created, PyDict.get?_set] at hk
  split at hk
  · cases hk; simp only [checkerDicts] at hd; cases hd; simp [created]
  · have := h k' c g st hk hd
    simp only [created]; omega

theorem apart_created {s : St A} (h : Heap s) {k0 : Key} (ha : Apart s k0) (k : Key) : Apart (created s k) k0 := by
  intro c g st hc hd
  simp only [created, PyDict.get?_set] at hc
  split at hc
  · next he =>
    subst he
    cases hc; simp only [checkerDicts] at hd; cases hd
    refine ⟨by omega, fun k' c' g' st' hne hk' hd' => ?_⟩
    simp only [created, PyDict.get?_set, if_neg (Ne.symm hne)] at hk'
    have := h k' c' g' st' hk' hd'
    omega
  · next he =>
    refine ⟨(ha c g st hc hd).1, fun k' c' g' st' hne hk' hd' => ?_⟩
    have hb := h k0 c g st hc hd
    simp only [created, PyDict.get?_set] at hk'
    split at hk'
    · cases hk'; simp only [checkerDicts] at hd'; cases hd'; omega
    · exact (ha c g st hc hd).2 k' c' g' st' hne hk' hd'

/-- `heap` and `apart` depend only on the registry and grow with the heap. -/
theorem heap_mono {s s' : St A} (h : Heap s) (hr : s'.reg = s.reg) (hn : s.nextId ≤ s'.nextId) : Heap s' := by
  intro k c g st hk hd
  rw [hr] at hk
  have := h k c g st hk hd
  omega

theorem apart_mono {s s' : St A} {k : Key} (h : Apart s k) (hr : s'.reg = s.reg) : Apart s' k := by
  intro c g st hk hd
  rw [hr] at hk
  refine ⟨(h c g st hk hd).1, fun k' c' g' st' hne hk' hd' => ?_⟩
  rw [hr] at hk'
  exact (h c g st hk hd).2 k' c' g' st' hne hk' hd'

/-- The stored requirement of a kind for a registry key, `none` when there is none. -/
def stored (w : Bool) (s : St A) (k : Key) (n : Name) : Option Val :=
  match s.reg.get? k with
  | some c =>
    match checkerDicts c with
    | some (g, st) => (s.dicts (side w g st)).get? n
    | none => none
  | none => none

/-- The required permission of a kind that the registered checker reports. -/
def required (w : Bool) (s : St A) (k : Key) (n : Name) : Option Val :=
  if w then setattrPermissionId s (getCheckerFor s k) n else permissionId s (getCheckerFor s k) n

/-- A stored `None` is no declaration. -/
def dropNone : Option Val → Option Val
  | some .none => none
  | r => r

theorem lookupPy_eq (d : PyDict Name Val) (n : Name) : lookupPy d n = dropNone (d.get? n) := by
  unfold lookupPy dropNone
  cases h : d.get? n with
  | none => rfl
  | some v => cases v <;> rfl

theorem required_eq (w : Bool) (s : St A) (k : Key) (n : Name) :
    required w s k n = dropNone (stored w s k n) := by
  unfold required stored getCheckerFor
  cases hc : s.reg.get? k with
  | none => cases w <;> simp [permissionId, setattrPermissionId, dropNone]
  | some c =>
    cases c <;> cases w <;> simp [permissionId, setattrPermissionId, checkerDicts, lookupPy_eq, side, dropNone]

theorem stored_mono {s s' : St A} (h : Heap s) (hr : s'.reg = s.reg)
    (hd : ∀ i, i < s.nextId → s'.dicts i = s.dicts i) (w : Bool) (k : Key) (n : Name) :
    stored w s' k n = stored w s k n := by
  unfold stored
  rw [hr]
  cases hc : s.reg.get? k with
  | none => rfl
  | some c =>
    simp only
    cases hc2 : checkerDicts c with
    | none => rfl
    | some gs =>
      obtain ⟨g, st⟩ := gs
      have := h k c g st hc hc2
      simp only
      rw [hd _ (by unfold side; split <;> omega)]

theorem stored_created {s : St A} (h : Heap s) (k0 : Key) (hk0 : s.reg.get? k0 = none) (w : Bool) (k : Key) (n : Name) :
    stored w (created s k0) k n = stored w s k n := by
  by_cases hk : k0 = k
  · subst hk
    have e1 : stored w s k0 n = none := by simp [stored, hk0]
    rw [e1]
    unfold stored created
    simp only [PyDict.get?_set_self, checkerDicts]
    unfold side
    cases w <;> simp
  · unfold stored
    have : (created s k0).reg.get? k = s.reg.get? k := by simp only [created, PyDict.get?_set, if_neg hk]
    rw [this]
    cases hc : s.reg.get? k with
    | none => rfl
    | some c =>
      simp only
      cases hc2 : checkerDicts c with
      | none => rfl
      | some gs =>
        obtain ⟨g, st⟩ := gs
        have := h k c g st hc hc2
        simp only [created]
        rw [if_neg (by unfold side; split <;> omega), if_neg (by unfold side; split <;> omega)]

/-- Writing one entry into the dictionary of a key whose dictionaries are its own. -/
theorem stored_set {s : St A} {k0 : Key} (ha : Apart s k0) {c : Val} {g st : Nat} (hc : s.reg.get? k0 = some c)
    (hd : checkerDicts c = some (g, st)) (w : Bool) (n : Name) (p : Val) (w' : Bool) (k : Key) (m : Name) :
    stored w' { s with dicts := fun i => if i = side w g st then (s.dicts (side w g st)).set n p else s.dicts i } k m
      = if k0 = k ∧ w = w' ∧ n = m then some p else stored w' s k m := by
  obtain ⟨h1, h2⟩ := ha c g st hc hd
  unfold stored
  simp only
  by_cases hk : k0 = k
  · subst hk
    simp only [hc, hd, true_and]
    by_cases hw : w = w'
    · subst hw
      simp [PyDict.get?_set]
    · have : side w' g st ≠ side w g st := by
        unfold side; cases w <;> cases w' <;> simp_all <;> omega
      rw [if_neg this, if_neg (fun h => hw h.1)]
  · rw [if_neg (fun h => hk h.1)]
    cases hc' : s.reg.get? k with
    | none => rfl
    | some c' =>
      simp only
      cases hd' : checkerDicts c' with
      | none => rfl
      | some gs =>
        obtain ⟨g', st'⟩ := gs
        have := h2 k c' g' st' (Ne.symm hk) hc' hd'
        simp only
        rw [if_neg (by unfold side; split <;> split <;> omega)]

/-- All about one declaration, for a key whose dictionaries are its own. -/
theorem declare_step (w : Bool) (s : St A) (hh : Heap s) (k : Key) (n : Name) (p : Val) :
    let s' := (declare w (keyVal k) n p s).2
    Heap s' ∧ (∀ k0, Apart s k0 → Apart s' k0)
    ∧ ((∃ c, s.reg.get? k = some c ∧ checkerDicts c = none) →
        ∀ w' k' m, stored w' s' k' m = stored w' s k' m)
    ∧ ((∀ c, s.reg.get? k = some c → checkerDicts c ≠ none) →
        (declare w (keyVal k) n p s).1 = .ok ()
        ∧ (∃ c, s'.reg.get? k = some c ∧ checkerDicts c ≠ none)
        ∧ (Apart s k → ∀ w' k' m, stored w' s' k' m =
            if k = k' ∧ w = w' ∧ n = m then some (translate p) else stored w' s k' m)
        ∧ (∀ k0, k0 ≠ k → Apart s k0 → ∀ w' m, stored w' s' k0 m = stored w' s k0 m)) := by
  have core : ∀ s1 c g st, getOrCreate (keyVal k) s = (.ok c, s1) → s1.reg.get? k = some c →
      checkerDicts c = some (g, st) → Heap s1 → (∀ k0, Apart s k0 → Apart s1 k0) →
      (∀ w' k' m, stored w' s1 k' m = stored w' s k' m) →
      let s' := (declare w (keyVal k) n p s).2
      Heap s' ∧ (∀ k0, Apart s k0 → Apart s' k0)
      ∧ (declare w (keyVal k) n p s).1 = .ok ()
      ∧ (∃ c, s'.reg.get? k = some c ∧ checkerDicts c ≠ none)
      ∧ (Apart s k → ∀ w' k' m, stored w' s' k' m =
          if k = k' ∧ w = w' ∧ n = m then some (translate p) else stored w' s k' m)
      ∧ (∀ k0, k0 ≠ k → Apart s k0 → ∀ w' m, stored w' s' k0 m = stored w' s k0 m) := by
    intro s1 c g st hg hr hd hh1 ha1 hs1
    simp only
    rw [declare_ok w s s1 (keyVal k) n p c g st hg hd]
    simp only
    refine ⟨heap_mono hh1 rfl (Nat.le_refl _), fun k0 h0 => apart_mono (ha1 k0 h0) rfl, trivial,
      ⟨c, hr, by rw [hd]; simp⟩, fun ha w' k' m => ?_, fun k0 hne h0 w' m => ?_⟩
    · rw [stored_set (ha1 k ha) hr hd, hs1]
    · rw [← hs1]
      unfold stored
      simp only
      cases hc' : s1.reg.get? k0 with
      | none => rfl
      | some c' =>
        simp only
        cases hd' : checkerDicts c' with
        | none => rfl
        | some gs =>
          obtain ⟨g', st'⟩ := gs
          have := (ha1 k0 h0 c' g' st' hc' hd').2 k c g st (Ne.symm hne) hr hd
          simp only
          rw [if_neg (by unfold side; split <;> split <;> omega)]
  cases hc : s.reg.get? k with
  | none =>
    have := core _ _ _ _ (getOrCreate_new s k hc) (by simp [created]) rfl (heap_created hh k)
      (fun k0 h0 => apart_created hh h0 k) (fun w' k' m => stored_created hh k hc w' k' m)
    refine ⟨this.1, this.2.1, ?_, fun _ => this.2.2⟩
    rintro ⟨c, h1, _⟩; cases h1
  | some c =>
    by_cases hn : c = .none
    · subst hn
      obtain ⟨e, s', h1, h2, h3, h4⟩ := getOrCreate_none s k hc
      simp only
      rw [declare_err w s s' (keyVal k) n p e h1]
      refine ⟨heap_mono hh h2 h3, fun k0 h0 => apart_mono h0 h2, fun _ w' k' m => stored_mono hh h2 h4 w' k' m, ?_⟩
      intro h; exact absurd rfl (h _ rfl)
    · have hg := getOrCreate_old s k c hc hn
      cases hd : checkerDicts c with
      | none =>
        obtain ⟨e, he⟩ := declare_bad w s s (keyVal k) n p c hg hd
        simp only
        rw [he]
        refine ⟨hh, fun _ h => h, fun _ _ _ _ => rfl, ?_⟩
        intro h; exact absurd hd (h _ rfl)
      | some gs =>
        obtain ⟨g, st⟩ := gs
        have := core s c g st hg hc hd hh (fun _ h => h) (fun _ _ _ => rfl)
        refine ⟨this.1, this.2.1, ?_, fun _ => this.2.2⟩
        rintro ⟨c', h1, h2⟩; cases h1; rw [hd] at h2; cases h2

theorem means_iff (p : Val) (q : Option Val) :
    Means p q ↔ dropNone (some (translate p)) = q := by
  constructor
  · intro h
    cases h with
    | isPublic a => simp [translate, zopePublic, publicV, dropNone]
    | isNone => rfl
    | other _ h1 h2 =>
      have : translate p = p := by
        cases p <;> simp only [translate]
        next a s => rw [if_neg]; intro hs; exact h1 a (by rw [hs]; rfl)
      rw [this]
      cases p <;> simp_all [dropNone]
  · intro h
    subst h
    by_cases h1 : ∃ a, p = .str a "zope.Public"
    · obtain ⟨a, rfl⟩ := h1
      simp only [translate, zopePublic, if_true]
      exact .isPublic a
    · by_cases h2 : p = .none
      · subst h2; exact .isNone
      · have : translate p = p := by
          cases p <;> simp only [translate]
          next a s => rw [if_neg]; intro hs; exact h1 ⟨a, by rw [hs]; rfl⟩
        rw [this]
        have := Means.other p (fun a ha => h1 ⟨a, ha⟩) h2
        cases p <;> simp_all [dropNone]

/-! ## copyDict -/

/-- The effect of copying one dictionary onto another one. -/
theorem copyDict_spec (src dst : Nat) (hne : src ≠ dst) (s : St A) :
    ∃ d, copyDict src dst s = (.ok (), { s with dicts := fun i => if i = dst then d else s.dicts i })
      ∧ ∀ n, d.get? n = ((s.dicts src).get? n).or ((s.dicts dst).get? n) := by
  have loop : ∀ (l : List Name) (s : St A), (∀ n ∈ l, (s.dicts src).get? n ≠ none) →
      ∃ d, copyNames src dst l s = (.ok (), { s with dicts := fun i => if i = dst then d else s.dicts i })
        ∧ ∀ n, d.get? n = if n ∈ l then (s.dicts src).get? n else (s.dicts dst).get? n := by
    intro l
    induction l with
    | nil =>
      intro s _
      refine ⟨s.dicts dst, ?_, by simp⟩
      show (Res.ok (), s) = _
      congr 1
      cases s; congr 1; funext i; simp only; split <;> simp_all
    | cons a r ih =>
      intro s hl
      cases hp : (s.dicts src).get? a with
      | none => exact absurd hp (hl a (by simp))
      | some p =>
        obtain ⟨d, h1, h2⟩ := ih
          { s with dicts := fun k => if k = dst then (s.dicts dst).set a p else s.dicts k } (by
            intro n hn
            simp only [if_neg hne]
            exact hl n (by simp [hn]))
        refine ⟨d, ?_, ?_⟩
        · simp only [copyNames, run_bind, run_get, hp, dictSet, run_modify]
          rw [h1]
          congr 2
          funext i
          split <;> simp_all
        · intro n
          rw [h2 n]
          simp only [if_neg hne, if_true, List.mem_cons, PyDict.get?_set]
          by_cases hn : n ∈ r
          · simp [hn]
          · by_cases hna : n = a
            · subst hna; simp [hn, hp]
            · simp [hn, hna, Ne.symm hna]
  obtain ⟨d, h1, h2⟩ := loop (s.dicts src).keys s (fun n hn h => ((PyDict.get?_eq_none_iff _ _).mp h) hn)
  refine ⟨d, ?_, fun n => ?_⟩
  · simp only [copyDict, run_bind, run_get]
    exact h1
  · rw [h2 n]
    split
    · next hn =>
      cases hg : (s.dicts src).get? n with
      | none => exact absurd hn ((PyDict.get?_eq_none_iff _ _).mp hg)
      | some p => rfl
    · next hn => rw [(PyDict.get?_eq_none_iff _ _).mpr hn]; rfl

end ZS
