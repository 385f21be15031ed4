import Verif.Lemmas.Protect
import Verif.Spec.Meta

/-!
# Lemmas about carrying out the actions of the directives
-/

namespace ZS
open Spec
variable {A : Type}

/-- The class or module is unregistered or its checker is a `Checker`. -/
def Dicts (s : St A) (k : Key) : Prop := ∀ c, s.reg.get? k = some c → checkerDicts c ≠ none

theorem Key.val_eq (k : Key) : k.val = keyVal k := by cases k <;> rfl

/-- Copying a dictionary onto itself changes no entry. -/
theorem copyDict_self (i : Nat) (s : St A) :
    ∃ d, copyDict i i s = (.ok (), { s with dicts := fun j => if j = i then d else s.dicts j })
      ∧ ∀ n, d.get? n = (s.dicts i).get? n := by
  have loop : ∀ (l : List Name) (s : St A), (∀ n ∈ l, (s.dicts i).get? n ≠ none) →
      ∃ d, copyNames i i l s = (.ok (), { s with dicts := fun j => if j = i then d else s.dicts j })
        ∧ ∀ n, d.get? n = (s.dicts i).get? n := by
    intro l
    induction l with
    | nil =>
      intro s _
      refine ⟨s.dicts i, ?_, fun _ => rfl⟩
      show (Res.ok (), s) = _
      congr 1
      cases s; congr 1; funext j; simp only; split <;> simp_all
    | cons a r ih =>
      intro s hl
      cases hp : (s.dicts i).get? a with
      | none => exact absurd hp (hl a (by simp))
      | some p =>
        have hset : ∀ n, ((s.dicts i).set a p).get? n = (s.dicts i).get? n := by
          intro n
          rw [PyDict.get?_set]
          split
          · next h => subst h; rw [hp]
          · rfl
        obtain ⟨d, h1, h2⟩ := ih
          { s with dicts := fun k => if k = i then (s.dicts i).set a p else s.dicts k } (by
            intro n hn
            simp only [if_true, hset]
            exact hl n (by simp [hn]))
        refine ⟨d, ?_, ?_⟩
        · simp only [copyNames, run_bind, run_get, hp, dictSet, run_modify]
          rw [h1]
          congr 2
          funext j
          split <;> simp_all
        · intro n
          rw [h2 n]
          simp only [if_true, hset]
  obtain ⟨d, h1, h2⟩ := loop (s.dicts i).keys s (fun n hn h => ((PyDict.get?_eq_none_iff _ _).mp h) hn)
  exact ⟨d, by simp only [copyDict, run_bind, run_get]; exact h1, h2⟩

/-- Copying a dictionary onto another one or onto itself. -/
theorem copyDict_any (src dst : Nat) (s : St A) :
    ∃ d, copyDict src dst s = (.ok (), { s with dicts := fun i => if i = dst then d else s.dicts i })
      ∧ ∀ n, d.get? n = ((s.dicts src).get? n).or ((s.dicts dst).get? n) := by
  by_cases h : src = dst
  · subst h
    obtain ⟨d, h1, h2⟩ := copyDict_self src s
    refine ⟨d, h1, fun n => ?_⟩
    rw [h2 n]
    cases (s.dicts src).get? n <;> rfl
  · exact copyDict_spec src dst h s

/-- `getOrCreate` on a class that is unregistered or has a `Checker`. -/
theorem getOrCreate_dicts (s : St A) (hh : Heap s) (k : Key) (hk : Dicts s k) :
    ∃ c g st s1, getOrCreate (keyVal k) s = (.ok c, s1) ∧ s1.reg.get? k = some c
      ∧ checkerDicts c = some (g, st) ∧ Heap s1 ∧ (∀ k0, Apart s k0 → Apart s1 k0)
      ∧ (∀ w k' n, stored w s1 k' n = stored w s k' n)
      ∧ (∀ k0, k0 ≠ k → s1.reg.get? k0 = s.reg.get? k0)
      ∧ (∀ i, i < s.nextId → s1.dicts i = s.dicts i) := by
  cases hc : s.reg.get? k with
  | none =>
    refine ⟨_, _, _, _, getOrCreate_new s k hc, by simp [created], rfl, heap_created hh k,
      fun k0 h0 => apart_created hh h0 k, fun w k' n => stored_created hh k hc w k' n, ?_, ?_⟩
    · intro k0 hne
      simp only [created, PyDict.get?_set, if_neg (Ne.symm hne)]
    · intro i hi
      simp only [created]
      rw [if_neg (by omega), if_neg (by omega)]
  | some c =>
    have hd := hk c hc
    cases hg : checkerDicts c with
    | none => exact absurd hg hd
    | some gs =>
      obtain ⟨g, st⟩ := gs
      exact ⟨c, g, st, s, getOrCreate_old s k c hc (by rintro rfl; cases hg), hc, hg, hh, fun _ h => h,
        fun _ _ _ => rfl, fun _ _ => rfl, fun _ _ => rfl⟩

/-- The other classes keep their entries in the registry. -/
theorem dicts_keep {s s' : St A} {k : Key} (hreg : ∀ k0, k0 ≠ k → s'.reg.get? k0 = s.reg.get? k0)
    (hk : ∃ c, s'.reg.get? k = some c ∧ checkerDicts c ≠ none) (k0 : Key) (h : Dicts s k0) : Dicts s' k0 := by
  intro c hc
  by_cases he : k0 = k
  · subst he
    obtain ⟨c', h1, h2⟩ := hk
    rw [hc] at h1; cases h1; exact h2
  · rw [hreg k0 he] at hc
    exact h c hc

/-- What is stored after replacing both dictionaries of a class that has its own. -/
theorem stored_replace {s : St A} {k : Key} (ha : Apart s k) {c : Val} {g st : Nat} (hc : s.reg.get? k = some c)
    (hd : checkerDicts c = some (g, st)) (d1 d2 : PyDict Name Val) (w : Bool) (k' : Key) (n : Name) :
    stored w { s with dicts := fun i => if i = st then d2 else if i = g then d1 else s.dicts i } k' n
      = if k' = k then (if w then d2 else d1).get? n else stored w s k' n := by
  obtain ⟨h1, h2⟩ := ha c g st hc hd
  by_cases hk : k' = k
  · subst hk
    simp only [stored, hc, hd, if_true]
    cases w <;> simp [side, h1]
  · rw [if_neg hk]
    unfold stored
    simp only
    cases hc' : s.reg.get? k' with
    | none => rfl
    | some c' =>
      simp only
      cases hd' : checkerDicts c' with
      | none => rfl
      | some gs =>
        obtain ⟨g', st'⟩ := gs
        have := h2 k' c' g' st' hk hc' hd'
        simp only
        rw [if_neg (by unfold side; split <;> omega), if_neg (by unfold side; split <;> omega)]

/-- `protectLikeUnto` on a class that is unregistered or has dictionaries of its own. -/
theorem like_step (s : St A) (hh : Heap s) (k kl : Key) (hk : Dicts s k) (ha : Apart s k) (hl : Dicts s kl) :
    let s' := (protectLikeUnto (keyVal k) (keyVal kl) s).2
    (protectLikeUnto (keyVal k) (keyVal kl) s).1 = .ok ()
    ∧ Heap s' ∧ (∀ k0, Apart s k0 → Apart s' k0) ∧ (∀ k0, Dicts s k0 → Dicts s' k0)
    ∧ ∀ w k' n, stored w s' k' n =
        if k' = k then (stored w s kl n).or (stored w s k n) else stored w s k' n := by
  cases hc : s.reg.get? kl with
  | none =>
    have : protectLikeUnto (keyVal k) (keyVal kl) s = (.ok (), s) := by
      simp [protectLikeUnto, definable_keyVal, getCheckerFor, hc, run_bind, likeFrom]
    rw [this]
    refine ⟨rfl, hh, fun _ h => h, fun _ h => h, fun w k' n => ?_⟩
    have e : stored w s kl n = none := by simp [stored, hc]
    rw [e]
    split
    · next h => subst h; rfl
    · rfl
  | some c =>
    have hcd := hl c hc
    cases hd : checkerDicts c with
    | none => exact absurd hd hcd
    | some gs =>
      obtain ⟨ug, us⟩ := gs
      have hcn : c ≠ .none := by rintro rfl; cases hd
      have hb := hh kl c ug us hc hd
      obtain ⟨c1, g, st, s1, hg, hr1, hd1, hh1, ha1, hs1, hreg1, hlow⟩ := getOrCreate_dicts s hh k hk
      obtain ⟨d1, e1, g1⟩ := copyDict_any ug g s1
      obtain ⟨d2, e2, g2⟩ := copyDict_any us st { s1 with dicts := fun i => if i = g then d1 else s1.dicts i }
      have hrun : protectLikeUnto (keyVal k) (keyVal kl) s = (.ok (), { s1 with
          dicts := fun i => if i = st then d2 else if i = g then d1 else s1.dicts i }) := by
        have h1 : protectLikeUnto (keyVal k) (keyVal kl) s = likeFrom (keyVal k) c s := by
          simp [protectLikeUnto, definable_keyVal, getCheckerFor, hc, run_bind]
        have h2 : likeFrom (keyVal k) c s = likeCopy (keyVal k) ug us s := by
          unfold likeFrom
          rw [hd]
          exact congrFun (if_neg hcn) s
        rw [h1, h2]
        simp only [likeCopy, run_bind, hg, hd1, e1]
        rw [e2]
      rw [hrun]
      simp only
      have hap := ha1 k ha
      refine ⟨trivial, heap_mono hh1 rfl (Nat.le_refl _), fun k0 h0 => apart_mono (ha1 k0 h0) rfl,
        fun k0 h0 => dicts_keep (s := s) (k := k) hreg1 ⟨c1, hr1, by rw [hd1]; simp⟩ k0 h0, fun w k' n => ?_⟩
      rw [stored_replace hap hr1 hd1, hs1 w k' n]
      by_cases hk' : k' = k
      · rw [if_pos hk', if_pos hk']
        -- what the class it is to be like has
        have hne : g ≠ st := (hap c1 g st hr1 hd1).1
        have hkl : ∀ w, stored w s kl n = ((s1.dicts (side w ug us)).get? n) := by
          intro w
          simp only [stored, hc, hd]
          rw [hlow _ (by unfold side; split <;> omega)]
        have hkk : ∀ w, stored w s k n = ((s1.dicts (side w g st)).get? n) := by
          intro w
          rw [← hs1]
          simp only [stored, hr1, hd1]
        cases w with
        | false =>
          rw [hkl, hkk]
          simp only [side, Bool.false_eq_true, if_false]
          rw [g1 n]
        | true =>
          rw [hkl, hkk]
          simp only [side, if_true]
          rw [g2 n]
          simp only [if_neg (Ne.symm hne)]
          -- `us` is not the dictionary just written: it is that of another class, or `st`
          have hus : us ≠ g := by
            by_cases hkk' : kl = k
            · subst hkk'
              have : s1.reg.get? kl = some c := by
                have h := getOrCreate_old s kl c hc hcn
                rw [hg] at h; cases h; exact hc
              rw [hr1] at this; cases this
              rw [hd1] at hd; cases hd
              exact Ne.symm hne
            · have hcl : s1.reg.get? kl = some c := by rw [hreg1 kl hkk']; exact hc
              have := (hap c1 g st hr1 hd1).2 kl c ug us hkk' hcl hd
              omega
          rw [if_neg hus]
      · rw [if_neg hk', if_neg hk']

/-- What an action does to the stored requirements. -/
def actStore : Action → Store → Store
  | .mimic k kl, σ => fun k' w n => if k' = k then (σ kl w n).or (σ k w n) else σ k' w n
  | .name k n p, σ => fun k' w m => if k = k' ∧ false = w ∧ n = m then some (translate p) else σ k' w m
  | .setAttr k n p, σ => fun k' w m => if k = k' ∧ true = w ∧ n = m then some (translate p) else σ k' w m
  | .classImplements _ _, σ => σ
  | .provideInterface _, σ => σ

/-- The stored requirements of a state. -/
def storeOf (s : St A) : Store := fun k w n => stored w s k n

/-- The classes an action needs to have dictionaries of their own. -/
def target : Action → Option Key
  | .mimic k _ => some k
  | .name k _ _ => some k
  | .setAttr k _ _ => some k
  | _ => none

/-- The class an action reads. -/
def source : Action → Option Key
  | .mimic _ kl => some kl
  | _ => none

theorem declare_dicts (w : Bool) (s : St A) (hh : Heap s) (k : Key) (hk : Dicts s k) (n : Name) (p : Val) (k0 : Key)
    (h0 : Dicts s k0) : Dicts (declare w (keyVal k) n p s).2 k0 := by
  obtain ⟨c, g, st, s1, hg, hr1, hd1, _, _, _, hreg1, _⟩ := getOrCreate_dicts s hh k hk
  rw [declare_ok w s s1 (keyVal k) n p c g st hg hd1]
  exact dicts_keep (s := s) (k := k) hreg1 ⟨c, hr1, by rw [hd1]; simp⟩ k0 h0

theorem action_step (a : Action) (s : St A) (hh : Heap s) (ht : ∀ k, target a = some k → Dicts s k ∧ Apart s k)
    (hs : ∀ k, source a = some k → Dicts s k) :
    let s' := (runAction a s).2
    (runAction a s).1 = .ok () ∧ Heap s' ∧ (∀ k0, Apart s k0 → Apart s' k0) ∧ (∀ k0, Dicts s k0 → Dicts s' k0)
    ∧ storeOf s' = actStore a (storeOf s) := by
  have decl : ∀ w k n p, Dicts s k → Apart s k →
      let s' := (declare w (keyVal k) n p s).2
      (declare w (keyVal k) n p s).1 = .ok () ∧ Heap s' ∧ (∀ k0, Apart s k0 → Apart s' k0)
      ∧ (∀ k0, Dicts s k0 → Dicts s' k0)
      ∧ ∀ k' w' m, stored w' s' k' m = if k = k' ∧ w = w' ∧ n = m then some (translate p) else stored w' s k' m := by
    intro w k n p hk hap
    have h := declare_step w s hh k n p
    exact ⟨(h.2.2.2 hk).1, h.1, h.2.1, fun k0 h0 => declare_dicts w s hh k hk n p k0 h0,
      fun k' w' m => (h.2.2.2 hk).2.2.1 hap w' k' m⟩
  cases a with
  | mimic k kl =>
    obtain ⟨h1, h2⟩ := ht k rfl
    simp only [runAction, Key.val_eq]
    have h := like_step s hh k kl h1 h2 (hs kl rfl)
    exact ⟨h.1, h.2.1, h.2.2.1, h.2.2.2.1, funext fun k' => funext fun w => funext fun n => h.2.2.2.2 w k' n⟩
  | name k n p =>
    obtain ⟨h1, h2⟩ := ht k rfl
    simp only [runAction, Key.val_eq]
    have h := decl false k n p h1 h2
    exact ⟨h.1, h.2.1, h.2.2.1, h.2.2.2.1, funext fun k' => funext fun w => funext fun m => h.2.2.2.2 k' w m⟩
  | setAttr k n p =>
    obtain ⟨h1, h2⟩ := ht k rfl
    simp only [runAction, Key.val_eq]
    have h := decl true k n p h1 h2
    exact ⟨h.1, h.2.1, h.2.2.1, h.2.2.2.1, funext fun k' => funext fun w => funext fun m => h.2.2.2.2 k' w m⟩
  | classImplements k i => exact ⟨rfl, hh, fun _ h => h, fun _ h => h, rfl⟩
  | provideInterface i => exact ⟨rfl, hh, fun _ h => h, fun _ h => h, rfl⟩

/-- What a list of actions does to the stored requirements. -/
def actStores (l : List Action) (σ : Store) : Store := l.foldl (fun σ a => actStore a σ) σ

theorem actions_run (l : List Action) (s : St A) (hh : Heap s)
    (ht : ∀ a ∈ l, ∀ k, target a = some k → Dicts s k ∧ Apart s k)
    (hs : ∀ a ∈ l, ∀ k, source a = some k → Dicts s k) :
    (runActions l s).1 = .ok () ∧ Heap (runActions l s).2 ∧ (∀ k0, Apart s k0 → Apart (runActions l s).2 k0)
    ∧ (∀ k0, Dicts s k0 → Dicts (runActions l s).2 k0)
    ∧ storeOf (runActions l s).2 = actStores l (storeOf s) := by
  induction l generalizing s with
  | nil => exact ⟨rfl, hh, fun _ h => h, fun _ h => h, rfl⟩
  | cons a r ih =>
    obtain ⟨h1, h2, h3, h4, h5⟩ := action_step a s hh (ht a (by simp)) (hs a (by simp))
    have hrun : runActions (a :: r) s = runActions r (runAction a s).2 := by
      have : runAction a s = (.ok (), (runAction a s).2) := Prod.ext h1 rfl
      show (runAction a >>= fun _ => runActions r) s = _
      rw [run_bind, this]
    rw [hrun]
    obtain ⟨i1, i2, i3, i4, i5⟩ := ih (runAction a s).2 h2
      (fun b hb k hk => ⟨h4 k (ht b (by simp [hb]) k hk).1, h3 k (ht b (by simp [hb]) k hk).2⟩)
      (fun b hb k hk => h4 k (hs b (by simp [hb]) k hk))
    exact ⟨i1, i2, fun k0 h0 => i3 k0 (h3 k0 h0), fun k0 h0 => i4 k0 (h4 k0 h0), by rw [i5, h5]; rfl⟩

end ZS
