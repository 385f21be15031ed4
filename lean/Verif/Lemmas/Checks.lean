import Verif.Model.Checker
import Verif.Spec.Checks

/-!
# Helper lemmas about checks
-/

namespace ZS
open Spec
variable {A : Type}

theorem isDunder_iff (n : Name) : isDunder n = true ↔ ∃ rest, n = "__" ++ rest := by
  unfold isDunder
  constructor
  · intro h
    split at h
    · next r hr =>
      refine ⟨String.ofList r, ?_⟩
      apply String.toList_inj.mp
      simp [hr]
    · simp at h
  · rintro ⟨r, rfl⟩
    simp

theorem iter_dunder : isDunder "__iter__" = true := by decide

theorem lookupPy_some {d : PyDict Name Val} {n : Name} {p : Val} :
    lookupPy d n = some p ↔ Declared .py d n p := by
  unfold lookupPy Declared
  split
  · next h => rw [h]; simp; intro h; exact h.symm
  · next h => 
    constructor
    · intro hp; refine ⟨hp, fun _ hn => ?_⟩; subst hn; exact h hp
    · exact fun hp => hp.1

theorem lookupPy_none {d : PyDict Name Val} {n : Name} :
    lookupPy d n = none ↔ Undeclared .py d n := by
  constructor
  · intro h p hp
    rw [← lookupPy_some, h] at hp; cases hp
  · intro h
    cases hl : lookupPy d n with
    | none => rfl
    | some p => exact absurd (lookupPy_some.mp hl) (h p)

theorem get_some_c {d : PyDict Name Val} {n : Name} {p : Val} :
    d.get? n = some p ↔ Declared .c d n p := by simp [Declared]

theorem get_none_c {d : PyDict Name Val} {n : Name} :
    d.get? n = none ↔ Undeclared .c d n := by
  simp only [Undeclared, ← get_some_c]
  cases d.get? n <;> simp

theorem paranoidCheck_iff (s : St A) (i : Nat) (perm : Val) :
    paranoidCheck s i perm = true ↔ perm = publicV ∨ AllSystem s i := by
  unfold paranoidCheck AllSystem
  split
  · next h => simp [h]
  · next h =>
    simp only [h, false_or, List.isEmpty_iff, List.filter_eq_nil_iff, List.mem_map]
    simp

/-- Asking an interaction follows its specification. -/
theorem ixCheck_spec (X : Ctx A) (ix perm obj : Val) (s : St A) (r : Res Bool) (s' : St A) :
    (do let v ← ixCheckPermission X ix perm obj; pure (truthy X.W v) : M A Bool) s = (r, s')
      ↔ IxAnswer X.W s perm obj ix r s' := by
  cases hix : ix with
  | ix i =>
    simp only [ixCheckPermission]
    by_cases hp : (s.ixs i).permissive = true
    · have hg : BuiltinGrants s i perm := Or.inl hp
      constructor
      · intro h
        simp [run_bind, hp, truthy] at h
        obtain ⟨rfl, rfl⟩ := h
        exact .yes hg
      · intro h
        cases h with
        | yes _ => simp [run_bind, hp, truthy]
        | no hn => exact absurd hg hn
        | foreign hv _ _ => exact absurd rfl (hv i)
        | foreignErr hv _ => exact absurd rfl (hv i)
        | foreignDiv hv _ => exact absurd rfl (hv i)
    · by_cases hg : paranoidCheck s i perm = true
      · have hb : BuiltinGrants s i perm := Or.inr ((paranoidCheck_iff s i perm).mp hg)
        constructor
        · intro h
          simp [run_bind, hp, truthy, hg] at h
          obtain ⟨rfl, rfl⟩ := h
          exact .yes hb
        · intro h
          cases h with
          | yes _ => simp [run_bind, hp, truthy, hg]
          | no hn => exact absurd hb hn
          | foreign hv _ _ => exact absurd rfl (hv i)
          | foreignErr hv _ => exact absurd rfl (hv i)
          | foreignDiv hv _ => exact absurd rfl (hv i)
      · have hb : ¬ BuiltinGrants s i perm := by
          rintro (h | h)
          · exact hp h
          · exact hg ((paranoidCheck_iff s i perm).mpr h)
        constructor
        · intro h
          simp [run_bind, hp, truthy, hg] at h
          obtain ⟨rfl, rfl⟩ := h
          exact .no hb
        · intro h
          cases h with
          | yes hn => exact absurd hn hb
          | no _ => simp [run_bind, hp, truthy, hg]
          | foreign hv _ _ => exact absurd rfl (hv i)
          | foreignErr hv _ => exact absurd rfl (hv i)
          | foreignDiv hv _ => exact absurd rfl (hv i)
  | _ =>
    simp only [ixCheckPermission, run_bind, probe]
    constructor
    · intro h
      split at h
      · next a s1 h1 =>
        cases h
        simp only [Prod.mk.injEq] at h1
        obtain ⟨h1, rfl⟩ := h1
        exact .foreign (by simp) (Prod.ext h1 rfl) rfl
      · next a s1 h1 =>
        cases h
        simp only [Prod.mk.injEq] at h1
        obtain ⟨h1, rfl⟩ := h1
        exact .foreignErr (by simp) (Prod.ext h1 rfl)
      · next s1 h1 =>
        cases h
        simp only [Prod.mk.injEq] at h1
        obtain ⟨h1, rfl⟩ := h1
        exact .foreignDiv (by simp) (Prod.ext h1 rfl)
    · intro h
      cases h with
      | foreign _ h1 h2 => simp [h1, h2]
      | foreignErr _ h1 => simp [h1]
      | foreignDiv _ h1 => simp [h1]

/-- The common "require a permission" fragment of all checks. -/
def requirePerm (X : Ctx A) (o : Val) (n : Name) (p : Val) : M A Unit :=
  if p = publicV then pure ()
  else do
    let b ← askInteraction X p o
    if b then pure () else M.throw (.unauthorized o n p)

theorem requirePerm_spec (X : Ctx A) (o : Val) (n : Name) (p : Val) (s : St A) (r : Res Unit × St A) :
    requirePerm X o n p s = r ↔ PermSpec X s o n p r := by
  unfold requirePerm
  by_cases hp : p = publicV
  · simp only [hp, if_true]
    constructor
    · rintro rfl; exact .isPublic rfl
    · intro h; cases h <;> first | rfl | contradiction
  · simp only [hp, if_false]
    cases hi : (s.threads X.tid).interaction with
    | none =>
      constructor
      · rintro rfl
        simp only [run_bind, askInteraction, run_get, hi]
        exact .noInteraction hp hi
      · intro h
        cases h <;> simp_all [run_bind, askInteraction]
    | some ix =>
      have key := ixCheck_spec X ix p o s
      have e1 : askInteraction X p o s
          = (do let v ← ixCheckPermission X ix p o; pure (truthy X.W v) : M A Bool) s := by
        rw [askInteraction, run_bind]; simp only [run_get]; rw [hi]
      rw [run_bind, e1]
      rcases hr : (do let v ← ixCheckPermission X ix p o; pure (truthy X.W v) : M A Bool) s with ⟨r1, s1⟩
      have ans := (key r1 s1).mp hr
      have uniq : ∀ r2 s2, IxAnswer X.W s p o ix r2 s2 → r2 = r1 ∧ s2 = s1 := by
        intro r2 s2 h2
        have := (key r2 s2).mpr h2
        rw [hr] at this
        cases this; exact ⟨rfl, rfl⟩
      constructor
      · rintro rfl
        cases r1 with
        | ok b => cases b with
          | true => exact .allowed hp hi ans
          | false => exact .refused hp hi ans
        | err e => exact .policyFails hp hi ans
        | diverge => exact .policyHangs hp hi ans
      · intro h
        cases h with
        | isPublic h => exact absurd h hp
        | noInteraction _ h => rw [hi] at h; cases h
        | allowed _ h h2 => rw [hi] at h; cases h; obtain ⟨rfl, rfl⟩ := uniq _ _ h2; rfl
        | refused _ h h2 => rw [hi] at h; cases h; obtain ⟨rfl, rfl⟩ := uniq _ _ h2; rfl
        | policyFails _ h h2 => rw [hi] at h; cases h; obtain ⟨rfl, rfl⟩ := uniq _ _ h2; rfl
        | policyHangs _ h h2 => rw [hi] at h; cases h; obtain ⟨rfl, rfl⟩ := uniq _ _ h2; rfl

theorem plainCheckPy_eq (X : Ctx A) (H) (g : Nat) (o : Val) (n : Name) (s : St A) :
    plainCheckPy X H g o n s = (match lookupPy (s.dicts g) n with
      | some p => requirePerm X o n p
      | none =>
        if n ∈ s.avail then pure ()
        else if n ≠ "__iter__" then M.throw (.forbidden n o)
        else do
          let h ← H o n
          if h then M.throw (.forbidden n o) else pure ()) s := by
  rfl

theorem plainCheckC_eq (X : Ctx A) (H) (g : Nat) (o : Val) (n : Name) (s : St A) :
    plainCheckC X H g o n s = (match (s.dicts g).get? n with
      | some p => requirePerm X o n p
      | none =>
        if isDunder n then
          if n ∈ s.avail then pure ()
          else if n = "__iter__" then do
            let h ← H o n
            if h then M.throw (.forbidden n o) else pure ()
          else M.throw (.forbidden n o)
        else M.throw (.forbidden n o)) s := by
  rfl

theorem declared_unique {impl : Impl} {d : PyDict Name Val} {n : Name} {p q : Val}
    (h1 : Declared impl d n p) (h2 : Declared impl d n q) : p = q := by
  have := h1.1.symm.trans h2.1; cases this; rfl

/-- Read checks follow their specification in both implementations. -/
theorem plainCheck_spec (X : Ctx A) (H) (g : Nat) (o : Val) (n : Name) (s : St A) (r : Res Unit × St A) :
    plainCheck X H g o n s = r ↔ ReadSpec X H s (s.dicts g) o n r := by
  -- the specification determines the outcome
  have tail : ∀ (hu : Undeclared X.impl (s.dicts g) n),
      ((if n ∈ s.avail ∧ (X.impl = .c → isDunder n = true) then (pure () : M A Unit)
        else if n ≠ "__iter__" then M.throw (.forbidden n o)
        else do
          let h ← H o n
          if h then M.throw (.forbidden n o) else pure ()) s = r ↔ ReadSpec X H s (s.dicts g) o n r) := by
    intro hu
    have av : (n ∈ s.avail ∧ (X.impl = .c → isDunder n = true)) ↔ Available X.impl s.avail n := by
      simp only [Available, isDunder_iff]
    by_cases ha : Available X.impl s.avail n
    · rw [if_pos (av.mpr ha)]
      constructor
      · rintro rfl; exact .byDefault hu ha
      · intro h; cases h <;> first | rfl | contradiction | (exfalso; rename_i hd _; exact hu _ hd)
    · rw [if_neg (fun h => ha (av.mp h))]
      by_cases hn : n = "__iter__"
      · rw [if_neg (by simpa using hn)]
        rw [run_bind]
        rcases hH : H o n s with ⟨r1, s1⟩
        constructor
        · rintro rfl
          cases r1 with
          | ok b => cases b with
            | true => exact .hasIter hu ha hn hH
            | false => exact .noIter hu ha hn hH
          | err e => exact .iterFails hu ha hn hH
          | diverge => exact .iterHangs hu ha hn hH
        · intro h
          cases h with
          | declared hd _ => exact absurd hd (hu _)
          | byDefault _ h => exact absurd h ha
          | noIter _ _ _ h => rw [hH] at h; cases h; rfl
          | hasIter _ _ _ h => rw [hH] at h; cases h; rfl
          | iterFails _ _ _ h => rw [hH] at h; cases h; rfl
          | iterHangs _ _ _ h => rw [hH] at h; cases h; rfl
          | forbidden _ _ h => exact absurd hn h
      · rw [if_pos hn]
        constructor
        · rintro rfl; exact .forbidden hu ha hn
        · intro h
          cases h with
          | declared hd _ => exact absurd hd (hu _)
          | byDefault _ h => exact absurd h ha
          | noIter _ _ h => exact absurd h hn
          | hasIter _ _ h => exact absurd h hn
          | iterFails _ _ h => exact absurd h hn
          | iterHangs _ _ h => exact absurd h hn
          | forbidden _ _ h => rfl
  have dec : ∀ p, Declared X.impl (s.dicts g) n p →
      (requirePerm X o n p s = r ↔ ReadSpec X H s (s.dicts g) o n r) := by
    intro p hd
    rw [requirePerm_spec]
    constructor
    · exact .declared hd
    · intro h
      cases h with
      | declared hd2 h2 => cases declared_unique hd hd2; exact h2
      | byDefault h => exact absurd hd (h _)
      | noIter h => exact absurd hd (h _)
      | hasIter h => exact absurd hd (h _)
      | iterFails h => exact absurd hd (h _)
      | iterHangs h => exact absurd hd (h _)
      | forbidden h => exact absurd hd (h _)
  unfold plainCheck
  cases hi : X.impl with
  | py =>
    simp only [plainCheckPy_eq]
    cases hl : lookupPy (s.dicts g) n with
    | some p => exact dec p (by rw [hi]; exact lookupPy_some.mp hl)
    | none =>
      have hu : Undeclared X.impl (s.dicts g) n := by rw [hi]; exact lookupPy_none.mp hl
      have := tail hu
      simpa [hi] using this
  | c =>
    simp only [plainCheckC_eq]
    cases hl : (s.dicts g).get? n with
    | some p => exact dec p (by rw [hi]; exact get_some_c.mp hl)
    | none =>
      have hu : Undeclared X.impl (s.dicts g) n := by rw [hi]; exact get_none_c.mp hl
      have := tail hu
      rw [← this]
      simp only [hi, true_implies]
      by_cases hd : isDunder n = true
      · simp only [hd, if_true, and_true]
        by_cases hn : n = "__iter__" <;> simp [hn]
      · have hn : n ≠ "__iter__" := by
          rintro rfl; exact hd iter_dunder
        simp [hd, hn]

/-- Write checks follow their specification in both implementations. -/
theorem plainSetattr_spec (X : Ctx A) (st : Nat) (o : Val) (n : Name) (s : St A) (r : Res Unit × St A) :
    plainSetattr X st o n s = r ↔ WriteSpec X s (s.dicts st) o n r := by
  have dec : ∀ p, Declared X.impl (s.dicts st) n p →
      (requirePerm X o n p s = r ↔ WriteSpec X s (s.dicts st) o n r) := by
    intro p hd
    rw [requirePerm_spec]
    constructor
    · exact .declared hd
    · intro h
      cases h with
      | declared hd2 h2 => cases declared_unique hd hd2; exact h2
      | forbidden h => exact absurd hd (h _)
  have und : Undeclared X.impl (s.dicts st) n →
      (((.err (.forbidden n o), s) : Res Unit × St A) = r ↔ WriteSpec X s (s.dicts st) o n r) := by
    intro hu
    constructor
    · rintro rfl; exact .forbidden hu
    · intro h
      cases h with
      | declared hd2 h2 => exact absurd hd2 (hu _)
      | forbidden h => rfl
  unfold plainSetattr
  cases hi : X.impl with
  | py =>
    have e : (if (s.dicts st).isEmpty then none else lookupPy (s.dicts st) n) = lookupPy (s.dicts st) n := by
      split
      · next h => rw [List.isEmpty_iff] at h; rw [h]; rfl
      · rfl
    simp only [plainSetattrPy, run_bind, run_get, e]
    cases hl : lookupPy (s.dicts st) n with
    | some p => exact dec p (by rw [hi]; exact lookupPy_some.mp hl)
    | none => exact und (by rw [hi]; exact lookupPy_none.mp hl)
  | c =>
    simp only [plainSetattrC, run_bind, run_get]
    cases hl : (s.dicts st).get? n with
    | some p => exact dec p (by rw [hi]; exact get_some_c.mp hl)
    | none => exact und (by rw [hi]; exact get_none_c.mp hl)

end ZS
