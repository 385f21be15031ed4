import Verif.Model.State

/-!
# Evaluation lemmas for the monad
-/

namespace ZS
variable {A α β : Type}

@[simp] theorem run_pure (a : α) (s : St A) : (pure a : M A α) s = (.ok a, s) := rfl

theorem run_bind (x : M A α) (f : α → M A β) (s : St A) :
    (x >>= f) s = match x s with
      | (.ok a, s') => f a s'
      | (.err e, s') => (.err e, s')
      | (.diverge, s') => (.diverge, s') := rfl

@[simp] theorem run_get (s : St A) : (M.get : M A (St A)) s = (.ok s, s) := rfl
@[simp] theorem run_modify (f : St A → St A) (s : St A) : M.modify f s = (.ok (), f s) := rfl
@[simp] theorem run_throw (e : Exn) (s : St A) : (M.throw e : M A α) s = (.err e, s) := rfl
@[simp] theorem run_diverge (s : St A) : (M.diverge : M A α) s = (.diverge, s) := rfl

theorem run_ite (c : Prop) [Decidable c] (x y : M A α) (s : St A) :
    (if c then x else y) s = if c then x s else y s := by split <;> rfl

theorem run_tryCatch (x : M A α) (p : Exn → Bool) (h : Exn → M A α) (s : St A) :
    M.tryCatch x p h s = match x s with
      | (.ok a, s') => (.ok a, s')
      | (.err e, s') => if p e then h e s' else (.err e, s')
      | (.diverge, s') => (.diverge, s') := rfl

@[simp] theorem bind_ok {x : M A α} {f : α → M A β} {s s' : St A} {a : α}
    (h : x s = (.ok a, s')) : (x >>= f) s = f a s' := by rw [run_bind, h]

@[simp] theorem bind_err {x : M A α} {f : α → M A β} {s s' : St A} {e : Exn}
    (h : x s = (.err e, s')) : (x >>= f) s = (.err e, s') := by rw [run_bind, h]

@[simp] theorem bind_diverge {x : M A α} {f : α → M A β} {s s' : St A}
    (h : x s = (.diverge, s')) : (x >>= f) s = (.diverge, s') := by rw [run_bind, h]

/-- What a successful sequential composition went through. -/
theorem bind_eq_ok {x : M A α} {f : α → M A β} {s s' : St A} {b : β}
    (h : (x >>= f) s = (.ok b, s')) : ∃ a s1, x s = (.ok a, s1) ∧ f a s1 = (.ok b, s') := by
  rw [run_bind] at h
  cases hx : x s with
  | mk r s1 =>
    rw [hx] at h
    cases r with
    | ok a => exact ⟨a, s1, rfl, h⟩
    | err e => simp at h
    | diverge => simp at h

namespace PyDict
variable {κ ν : Type} [DecidableEq κ]

@[simp] theorem get?_nil (x : κ) : get? ([] : PyDict κ ν) x = none := rfl

theorem get?_set (d : PyDict κ ν) (k : κ) (v : ν) (x : κ) :
    (d.set k v).get? x = if k = x then some v else d.get? x := by
  induction d with
  | nil => simp [set, get?]
  | cons p r ih =>
    obtain ⟨a, b⟩ := p
    simp only [set]
    split
    · next h => subst h; simp only [get?]; split <;> simp_all
    · next h =>
      simp only [get?, ih]
      split
      · next h2 => subst h2; simp [Ne.symm h]
      · rfl

@[simp] theorem get?_set_self (d : PyDict κ ν) (k : κ) (v : ν) : (d.set k v).get? k = some v := by
  simp [get?_set]

theorem get?_set_ne (d : PyDict κ ν) {k x : κ} (v : ν) (h : k ≠ x) :
    (d.set k v).get? x = d.get? x := by simp [get?_set, h]

theorem get?_del (d : PyDict κ ν) (k x : κ) :
    (d.del k).get? x = if k = x then none else d.get? x := by
  induction d with
  | nil => simp [del]
  | cons p r ih =>
    obtain ⟨a, b⟩ := p
    simp only [del, List.filter_cons] at ih ⊢
    split
    · next h =>
      simp only [decide_eq_true_eq] at h
      simp only [get?, ih]
      split
      · next h2 => subst h2; simp [Ne.symm h]
      · rfl
    · next h =>
      simp only [decide_eq_true_eq, Classical.not_not] at h
      subst h
      rw [ih]; simp only [get?]; split <;> rfl

theorem get?_eq_none_iff (d : PyDict κ ν) (x : κ) : d.get? x = none ↔ x ∉ d.keys := by
  induction d with
  | nil => simp [keys]
  | cons p r ih =>
    obtain ⟨a, b⟩ := p
    simp only [get?, keys, List.map_cons, List.mem_cons] at ih ⊢
    split
    · next h => simp [h]
    · next h => rw [ih]; simp [Ne.symm h]

theorem get?_update (d e : PyDict κ ν) (x : κ) :
    (d.update e).get? x = (e.foldl (fun acc p => if p.1 = x then some p.2 else acc) (d.get? x)) := by
  unfold update
  induction e generalizing d with
  | nil => rfl
  | cons p r ih => simp only [List.foldl_cons]; rw [ih]; simp [get?_set]

end PyDict

end ZS
