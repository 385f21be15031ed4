import Verif.Lemmas.Dict
import Verif.Lemmas.Protect
import Verif.Lemmas.Checks
import Verif.Props.Checks
import Verif.Examples.World

/-!
# C30-C34: the registry and the checker constructors
-/

namespace ZS.Props
open Spec
variable {A : Type}

/-! ## C30 registry histories -/

/-- Calls on the registry. -/
inductive RegOp where
  | define (t c : Val)
  | undefine (k : Key)
  | lookup (k : Key)
  deriving DecidableEq

/-- Run one call. -/
def RegOp.run : RegOp → M A Val
  | .define t c => do defineChecker t c; pure .none
  | .undefine k => do undefineChecker k; pure .none
  | .lookup k => do let s ← M.get; pure (getCheckerFor s k)

/-- The state after a history; exceptions are caught by the caller and the history goes on. -/
def afterReg : List RegOp → St A → St A
  | [], s => s
  | op :: r, s => afterReg r (op.run s).2

/-- **C30** Outcome and effect of each call, whatever the state: define succeeds iff the argument is
a class or module that is not registered, and then registers exactly that; undefine succeeds iff
the key is registered; a failing call and a lookup change nothing at all. -/
theorem C30_calls (s : St A) :
    (∀ t c, (∀ k, t ≠ keyVal k) → (RegOp.define t c).run s = (.err .typeError, s))
    ∧ (∀ k c c', s.reg.get? k = some c' → (RegOp.define (keyVal k) c).run s = (.err (.duplication (keyVal k)), s))
    ∧ (∀ k c, s.reg.get? k = none → (RegOp.define (keyVal k) c).run s = (.ok .none, { s with reg := s.reg.set k c }))
    ∧ (∀ k, s.reg.get? k = none → (RegOp.undefine k).run s = (.err .keyError, s))
    ∧ (∀ k c, s.reg.get? k = some c → (RegOp.undefine k).run s = (.ok .none, { s with reg := s.reg.del k }))
    ∧ (∀ k, (RegOp.lookup k).run s = (.ok ((s.reg.get? k).getD .none), s)) := by
  have hdef : ∀ k, definable (keyVal k) = some k := by intro k; cases k <;> rfl
  refine ⟨fun t c h => ?_, fun k c c' h => ?_, fun k c h => ?_, fun k h => ?_, fun k c h => ?_, fun k => rfl⟩
  · have : definable t = none := by
      cases t with
      | type t => exact absurd rfl (h (.ty t))
      | module m => exact absurd rfl (h (.mod m))
      | _ => rfl
    simp [RegOp.run, defineChecker, this, run_bind]
  · simp [RegOp.run, defineChecker, hdef, run_bind, PyDict.mem, h]
  · simp [RegOp.run, defineChecker, hdef, run_bind, PyDict.mem, h]
  · simp [RegOp.run, undefineChecker, run_bind, PyDict.mem, h]
  · simp [RegOp.run, undefineChecker, run_bind, PyDict.mem, h]

theorem afterReg_append (h1 h2 : List RegOp) (s : St A) :
    afterReg (h1 ++ h2) s = afterReg h2 (afterReg h1 s) := by
  induction h1 generalizing s with
  | nil => rfl
  | cons op r ih => exact ih _

theorem step_get (op : RegOp) (s : St A) (k : Key) :
    (op.run s).2.reg.get? k =
      match op with
      | .define t c => if t = keyVal k ∧ s.reg.get? k = none then some c else s.reg.get? k
      | .undefine k' => if k' = k then none else s.reg.get? k
      | .lookup _ => s.reg.get? k := by
  obtain ⟨c1, c2, c3, c4, c5, c6⟩ := C30_calls s
  cases op with
  | define t c =>
    simp only
    by_cases hk : ∃ k', t = keyVal k'
    · obtain ⟨k', rfl⟩ := hk
      have hinj : keyVal k' = keyVal k ↔ k' = k := by cases k <;> cases k' <;> simp [keyVal]
      simp only [hinj]
      cases hg : s.reg.get? k' with
      | some c' =>
        rw [c2 k' c c' hg]
        simp only
        split
        · next h => rw [← h.1, hg] at h; cases h.2
        · rfl
      | none =>
        rw [c3 k' c hg]
        simp only [PyDict.get?_set]
        by_cases h : k' = k
        · subst h; simp [hg]
        · simp [h]
    · rw [c1 t c (fun k' h => hk ⟨k', h⟩)]
      simp only
      rw [if_neg (fun h => hk ⟨k, h.1⟩)]
  | undefine k' =>
    simp only
    cases hg : s.reg.get? k' with
    | some c' => rw [c5 k' c' hg]; simp only [PyDict.get?_del]
    | none =>
      rw [c4 k' hg]
      simp only
      split
      · next h => rw [← h, hg]
      · rfl
  | lookup k' => rw [c6 k']

/-- **C30** After any history the checker registered under a key is the one of a define that found
the key free and was not followed by an undefine of that key — or the original one, if the key
was never undefined. -/
theorem C30_last_define (h : List RegOp) (s : St A) (k : Key) (c : Val) :
    (afterReg h s).reg.get? k = some c ↔
      (∃ h1 h2, h = h1 ++ .define (keyVal k) c :: h2 ∧ (afterReg h1 s).reg.get? k = none ∧ .undefine k ∉ h2)
      ∨ (s.reg.get? k = some c ∧ .undefine k ∉ h) := by
  -- a registered key stays as it is until it is undefined
  have stay : ∀ (h : List RegOp) (s : St A) (c : Val), s.reg.get? k = some c → .undefine k ∉ h →
      (afterReg h s).reg.get? k = some c := by
    intro h
    induction h with
    | nil => intro s c hs _; exact hs
    | cons op r ih =>
      intro s c hs hu
      simp only [List.mem_cons, not_or] at hu
      apply ih _ _ _ hu.2
      rw [step_get]
      cases op with
      | define t c' => simp [hs]
      | undefine k' => simp only; rw [if_neg (fun h => hu.1 (by rw [h]))]; exact hs
      | lookup k' => exact hs
  constructor
  · intro hg
    induction h generalizing s with
    | nil => exact .inr ⟨hg, by simp⟩
    | cons op r ih =>
      rcases ih (op.run s).2 hg with ⟨h1, h2, hr, hn, hu⟩ | ⟨hs, hu⟩
      · exact .inl ⟨op :: h1, h2, by rw [hr]; rfl, hn, hu⟩
      · rw [step_get] at hs
        cases op with
        | define t c' =>
          simp only at hs
          split at hs
          · next h0 =>
            cases hs
            exact .inl ⟨[], r, by rw [h0.1]; rfl, h0.2, hu⟩
          · exact .inr ⟨hs, by simp [hu]⟩
        | undefine k' =>
          simp only at hs
          split at hs
          · cases hs
          · next h0 => exact .inr ⟨hs, by simp [hu, Ne.symm h0]⟩
        | lookup k' => exact .inr ⟨hs, by simp [hu]⟩
  · rintro (⟨h1, h2, rfl, hn, hu⟩ | ⟨hs, hu⟩)
    · rw [afterReg_append]
      refine stay h2 _ c ?_ hu
      rw [step_get]
      simp [hn]
    · exact stay h s c hs hu

/-- **C30** Registry calls touch nothing but the registry. -/
theorem C30_frame (h : List RegOp) (s : St A) : ∃ r, afterReg h s = { s with reg := r } := by
  induction h generalizing s with
  | nil => exact ⟨s.reg, rfl⟩
  | cons op r ih =>
    have : ∃ r, (op.run s).2 = { s with reg := r } := by
      obtain ⟨c1, c2, c3, c4, c5, c6⟩ := C30_calls s
      cases op with
      | define t c =>
        by_cases hk : ∃ k, t = keyVal k
        · obtain ⟨k, rfl⟩ := hk
          cases hg : s.reg.get? k with
          | some c' => rw [c2 k c c' hg]; exact ⟨s.reg, rfl⟩
          | none => rw [c3 k c hg]; exact ⟨_, rfl⟩
        · rw [c1 t c (fun k h => hk ⟨k, h⟩)]; exact ⟨s.reg, rfl⟩
      | undefine k =>
        cases hg : s.reg.get? k with
        | some c' => rw [c5 k c' hg]; exact ⟨_, rfl⟩
        | none => rw [c4 k hg]; exact ⟨s.reg, rfl⟩
      | lookup k => exact ⟨s.reg, rfl⟩
    obtain ⟨r1, h1⟩ := this
    obtain ⟨r2, h2⟩ := ih (op.run s).2
    exact ⟨r2, by simp only [afterReg]; rw [h2, h1]⟩

/-- Redefinition after undefinition, with a failing define in between. -/
example : (afterReg [.define (.type "T") Ex.c1, .define (.type "T") (.checker 1 2 3), .undefine (.ty "T"),
      .define (.type "T") (.checker 9 9 9)] Ex.s0).reg.get? (.ty "T") = some (.checker 9 9 9) := by decide

/-! ## C31 BasicTypes -/

/-- Operations on `BasicTypes` together with registrations of other types. -/
inductive BasicOp where
  | set (k : Key) (v : Val)
  | del (k : Key)
  | update (d : PyDict Key Val)
  | clear
  | define (t c : Val)
  | undefine (k : Key)
  | pop (k : Key)
  | setdefault (k : Key) (v : Val)
  | popitem
  | ior (d : PyDict Key Val)

/-- Run one of them. -/
def BasicOp.run : BasicOp → M A Unit
  | .set k v => basicSet k v
  | .del k => basicDel k
  | .update d => basicUpdate d
  | .clear => basicClear
  | .define t c => defineChecker t c
  | .undefine k => undefineChecker k
  | .pop k => basicPop k
  | .setdefault k v => basicSetdefault k v
  | .popitem => basicPopitem
  | .ior d => basicIor d

/-- Run a history, catching exceptions. -/
def afterBasic : List BasicOp → St A → St A
  | [], s => s
  | op :: r, s => afterBasic r (op.run s).2

/-- Operations that keep the tables in step: not an undefinition of a basic type, nor one of the
inherited insertions `setdefault` and `|=` of an entry the registry does not have. -/
def Sound (s : St A) : BasicOp → Prop
  | .undefine k => s.basic.get? k = none
  | .setdefault k v => s.basic.get? k = none → s.reg.get? k = some v
  | .ior d => ∀ k v, d.get? k = some v → s.reg.get? k = some v
  | _ => True

/-- The arguments are dictionaries: no key occurs twice. -/
def BasicOp.Real : BasicOp → Prop
  | .update d => d.keys.Nodup
  | .ior d => d.keys.Nodup
  | _ => True

/-- Every step of the history is sound where it happens. -/
def SoundHist : List BasicOp → St A → Prop
  | [], _ => True
  | op :: r, s => Sound s op ∧ SoundHist r (op.run s).2

/-- Registry and table are in step. -/
def InStep (s : St A) : Prop := ∀ k v, s.basic.get? k = some v → s.reg.get? k = some v

theorem get?_dropLast {d : PyDict Key Val} {k : Key} {v : Val} (h : PyDict.get? d.dropLast k = some v) : d.get? k = some v := by
  induction d with
  | nil => cases h
  | cons e d ih =>
    obtain ⟨a, b⟩ := e
    cases d with
    | nil => cases h
    | cons e' d' =>
      simp only [List.dropLast_cons_cons] at h
      simp only [PyDict.get?] at h ⊢
      split at h
      · next h1 => rw [if_pos h1]; exact h
      · next h1 => rw [if_neg h1]; exact ih h

theorem inStep_step (op : BasicOp) (hr : op.Real) (s : St A) (hs : InStep s) (hop : Sound s op) : InStep (op.run s).2 := by
  cases op with
  | set k v =>
    intro k' v' h
    simp only [BasicOp.run, basicSet, run_bind, run_modify] at h ⊢
    rw [PyDict.get?_set] at h ⊢
    split at h
    · next h1 => rw [if_pos h1]; exact h
    · next h1 => rw [if_neg h1]; exact hs k' v' h
  | del k =>
    simp only [BasicOp.run, basicDel, run_bind, run_get, run_ite]
    split
    · next hb =>
      simp only [run_modify]
      split
      · intro k' v' h
        rw [PyDict.get?_del] at h ⊢
        split at h
        · cases h
        · next h1 => rw [if_neg h1]; exact hs k' v' h
      · next hr =>
        exfalso
        obtain ⟨v, hv⟩ := (PyDict.mem_iff _ _).mp hb
        exact hr ((PyDict.mem_iff _ _).mpr ⟨v, hs _ _ hv⟩)
    · exact hs
  | update d =>
    intro k' v' h
    simp only [BasicOp.run, basicUpdate, run_bind, run_modify] at h ⊢
    rw [PyDict.get?_update_nodup _ hr] at h ⊢
    cases hd : d.get? k' with
    | some v => rw [hd] at h; exact h
    | none => rw [hd] at h; exact hs k' v' h
  | clear => exact hs
  | define t c =>
    have hc := step_get (.define t c) s
    obtain ⟨r, hr⟩ := C30_frame [.define t c] s
    have he : ((BasicOp.define t c).run s).2 = ((RegOp.define t c).run s).2 := by
      simp only [BasicOp.run, RegOp.run, run_bind]
      split <;> simp_all
    have hr' : ((RegOp.define t c).run s).2 = { s with reg := r } := hr
    intro k' v' h
    rw [he] at h ⊢
    rw [hc k']
    rw [hr'] at h
    have h0 := hs k' v' h
    simp [h0]
  | undefine k =>
    simp only [BasicOp.run, undefineChecker, run_bind, run_get, run_ite]
    split
    · intro k' v' h
      simp only [run_modify] at h ⊢
      rw [PyDict.get?_del]
      split
      · next h1 => subst h1; simp only [Sound] at hop; rw [hop] at h; cases h
      · exact hs k' v' h
    · exact hs
  | pop k =>
    simp only [BasicOp.run, basicPop, run_bind, run_get, run_ite]
    split
    · intro k' v' h
      simp only [run_modify] at h ⊢
      rw [PyDict.get?_del] at h
      split at h
      · cases h
      · exact hs k' v' h
    · exact hs
  | setdefault k v =>
    simp only [BasicOp.run, basicSetdefault, run_bind, run_get, run_ite]
    split
    · exact hs
    · next hb =>
      intro k' v' h
      simp only [run_modify] at h ⊢
      rw [PyDict.get?_set] at h
      split at h
      · next h1 =>
        cases h
        subst h1
        refine hop ?_
        cases hk : s.basic.get? k with
        | none => rfl
        | some v => exact absurd ((PyDict.mem_iff _ _).mpr ⟨v, hk⟩) hb
      · exact hs k' v' h
  | popitem =>
    simp only [BasicOp.run, basicPopitem, run_bind, run_get, run_ite]
    split
    · exact hs
    · intro k' v' h
      simp only [run_modify] at h ⊢
      exact hs k' v' (get?_dropLast h)
  | ior d =>
    intro k' v' h
    simp only [BasicOp.run, basicIor, run_modify] at h ⊢
    rw [PyDict.get?_update_nodup _ hr] at h
    cases hd : d.get? k' with
    | some v =>
      rw [hd] at h
      cases h
      exact hop k' v' hd
    | none => rw [hd] at h; exact hs k' v' h

/-- An operation that is not sound breaks the step. -/
theorem unsound_breaks (op : BasicOp) (hr : op.Real) (s : St A) (hs : InStep s) (h : InStep (op.run s).2) : Sound s op := by
  cases op with
  | undefine k =>
    show s.basic.get? k = none
    cases hk : s.basic.get? k with
    | none => rfl
    | some v =>
      exfalso
      have h1 := hs k v hk
      simp only [BasicOp.run, undefineChecker, run_bind, run_get, run_ite] at h
      rw [if_pos ((PyDict.mem_iff _ _).mpr ⟨v, h1⟩)] at h
      have := h k v hk
      simp only [run_modify, PyDict.get?_del, if_true] at this
      cases this
  | setdefault k v =>
    intro hk
    have hm : ¬ s.basic.mem k = true := by
      intro hm
      obtain ⟨w, hw⟩ := (PyDict.mem_iff _ _).mp hm
      rw [hk] at hw; cases hw
    simp only [BasicOp.run, basicSetdefault, run_bind, run_get, run_ite] at h
    rw [if_neg hm] at h
    exact h k v (by simp [run_modify])
  | ior d =>
    intro k v hd
    exact h k v (by simp [BasicOp.run, basicIor, run_modify, PyDict.get?_update_nodup _ hr, hd])
  | _ => trivial

/-- The tables are in step at the start and after each step of the history. -/
def AlwaysInStep : List BasicOp → St A → Prop
  | [], s => InStep s
  | op :: r, s => InStep s ∧ AlwaysInStep r (op.run s).2

/-- **C31** Along a history of operations on `BasicTypes`, registrations and undefinitions, every type in
`BasicTypes` always has the same entry in the registry, if and only if the history contains no
undefinition of a type that is then basic and no insertion by the inherited `setdefault` or `|=` of an entry
that the registry does not already have.  (Assignments, deletions, updates, clear attempts, the
inherited removals and registrations never matter.) -/
theorem C31_in_step (h : List BasicOp) (hr : ∀ op ∈ h, op.Real) (s : St A) (hs : InStep s) :
    AlwaysInStep h s ↔ SoundHist h s := by
  induction h generalizing s with
  | nil => exact ⟨fun _ => trivial, fun _ => hs⟩
  | cons op r ih =>
    have ih' := ih (fun op h => hr op (by simp [h]))
    have hr' := hr op (by simp)
    constructor
    · rintro ⟨_, h2⟩
      have h3 : InStep (op.run s).2 := by cases r with | nil => exact h2 | cons => exact h2.1
      exact ⟨unsound_breaks op hr' s hs h3, (ih' _ h3).mp h2⟩
    · rintro ⟨h1, h2⟩
      exact ⟨hs, (ih' _ (inStep_step op hr' s hs h1)).mpr h2⟩

/-- **C31** So after any such history the tables are in step. -/
theorem C31_after (h : List BasicOp) (hr : ∀ op ∈ h, op.Real) (s : St A) (hs : InStep s) (hh : SoundHist h s) :
    InStep (afterBasic h s) := by
  induction h generalizing s with
  | nil => exact hs
  | cons op r ih => exact ih (fun op h => hr op (by simp [h])) _ (inStep_step op (hr op (by simp)) s hs hh.1) hh.2

/-- **C31** Assignment and deletion act on both tables at once, `clear` always raises and changes
nothing. -/
theorem C31_effects (s : St A) :
    (∀ k v, (basicSet k v s).1 = .ok () ∧ (basicSet k v s).2.basic.get? k = some v
        ∧ (basicSet k v s).2.reg.get? k = some v)
    ∧ (∀ k v, InStep s → s.basic.get? k = some v → (basicDel k s).1 = .ok ()
        ∧ (basicDel k s).2.basic.get? k = none ∧ (basicDel k s).2.reg.get? k = none)
    ∧ (∀ k, s.basic.get? k = none → basicDel k s = (.err .keyError, s))
    ∧ (∀ d : PyDict Key Val, d.keys.Nodup → ∀ k v, d.get? k = some v →
        (basicUpdate d s).2.basic.get? k = some v ∧ (basicUpdate d s).2.reg.get? k = some v)
    ∧ basicClear s = (.err .notImplementedError, s) := by
  refine ⟨fun k v => ?_, fun k v hs h => ?_, fun k h => ?_, fun d hd k v h => ?_, rfl⟩
  · simp [basicSet, run_bind]
  · have hr := hs k v h
    simp [basicDel, run_bind, PyDict.mem, h, hr, PyDict.get?_del]
  · simp [basicDel, run_bind, PyDict.mem, h]
  · simp [basicUpdate, run_bind, PyDict.get?_update_nodup _ hd, h]

/-- The initial state is in step, and a non-trivial history is sound. -/
example : InStep (Ex.s0) ∧ SoundHist [.set (.ty "Money") .noProxy, .define (.type "Acct") Ex.c1,
    .undefine (.ty "Acct"), .del (.ty "Money"), .clear, .pop (.ty "int"), .setdefault (.ty "int") .noProxy, .popitem] Ex.s0 := by
  constructor
  · intro k v h
    show (PyDict.update (PyDict.update [] defaultCheckers) basicTypes).get? k = some v
    rw [PyDict.get?_update_nodup _ (by decide)]
    have : PyDict.get? basicTypes k = some v := h
    rw [this]; rfl
  · refine ⟨trivial, trivial, ?_, trivial, trivial, trivial, ?_, trivial, trivial⟩
    · show _ = _
      decide
    · intro _
      decide

/-- **C31** The exceptions are real, and the inherited removals leave the registry entry behind: after
`pop` the registry still has the type, after `setdefault`, `|=` or `undefineChecker` it lacks one that
`BasicTypes` has. -/
theorem C31_broken_by_inherited :
    ((basicPop (.ty "int") Ex.s0).2.basic.get? (.ty "int") = none
      ∧ (basicPop (.ty "int") Ex.s0).2.reg.get? (.ty "int") = some .noProxy)
    ∧ ¬ InStep (basicSetdefault (.ty "Money") .noProxy Ex.s0).2
    ∧ ¬ InStep (basicIor [(.ty "Money", .noProxy)] Ex.s0).2
    ∧ ¬ InStep (undefineChecker (.ty "int") Ex.s0).2
    ∧ ((basicDel (.ty "int") (undefineChecker (.ty "int") Ex.s0).2).1 = .err .keyError
      ∧ (basicDel (.ty "int") (undefineChecker (.ty "int") Ex.s0).2).2.basic.get? (.ty "int") = none) := by
  refine ⟨⟨by decide, by decide⟩, fun h => ?_, fun h => ?_, fun h => ?_, by decide, by decide⟩
  · exact absurd (h (.ty "Money") .noProxy (by decide)) (by decide)
  · exact absurd (h (.ty "Money") .noProxy (by decide)) (by decide)
  · exact absurd (h (.ty "int") .noProxy (by decide)) (by decide)

/-- What an operation on `BasicTypes` should do: succeed, or raise and change nothing. -/
def basicOutcome (s : St A) : BasicOp → Res Unit
  | .del k => if s.basic.get? k = none then .err .keyError else .ok ()
  | .pop k => if s.basic.get? k = none then .err .keyError else .ok ()
  | .popitem => if s.basic = [] then .err .keyError else .ok ()
  | .clear => .err .notImplementedError
  | .undefine k => if s.reg.get? k = none then .err .keyError else .ok ()
  | .define t _ => match definable t with
    | none => .err .typeError
    | some k => if s.reg.get? k = none then .ok () else .err (.duplication t)
  | _ => .ok ()

private theorem mem_false_iff (d : PyDict Key Val) (k : Key) : d.mem k = false ↔ d.get? k = none := by
  have := PyDict.mem_iff d k
  cases h : d.mem k <;> cases g : d.get? k <;> simp_all

/-- **C31** Each operation succeeds or raises as the contents say (`KeyError` for a key that is not there, also through the inherited `pop` and `popitem`), and one that raises
changes nothing, as long as the tables are in step. -/
theorem C31_outcomes (op : BasicOp) (s : St A) (hs : InStep s) :
    (op.run s).1 = basicOutcome s op ∧ (∀ e, (op.run s).1 = .err e → (op.run s).2 = s) := by
  cases op with
  | del k =>
    have hx := fun v => hs k v
    simp only [BasicOp.run, basicDel, run_bind, run_get, run_ite, basicOutcome, ← mem_false_iff]
    cases h : s.basic.mem k
    · simp
    · obtain ⟨v, hv⟩ := (PyDict.mem_iff _ _).mp h
      have h2 : s.reg.mem k = true := (PyDict.mem_iff _ _).mpr ⟨v, hs _ _ hv⟩
      simp [h2]
  | pop k =>
    simp only [BasicOp.run, basicPop, run_bind, run_get, run_ite, basicOutcome, ← mem_false_iff]
    cases h : s.basic.mem k <;> simp
  | popitem =>
    simp only [BasicOp.run, basicPopitem, run_bind, run_get, run_ite, basicOutcome]
    cases h : s.basic <;> simp
  | undefine k =>
    simp only [BasicOp.run, undefineChecker, run_bind, run_get, run_ite, basicOutcome, ← mem_false_iff]
    cases h : s.reg.mem k <;> simp
  | define t c =>
    simp only [BasicOp.run, defineChecker, basicOutcome]
    cases hd : definable t with
    | none => simp
    | some k =>
      simp only [run_bind, run_get, run_ite, ← mem_false_iff]
      cases h : s.reg.mem k <;> simp
  | setdefault k v =>
    simp only [BasicOp.run, basicSetdefault, run_bind, run_get, run_ite, basicOutcome]
    cases h : s.basic.mem k <;> simp
  | _ => simp [BasicOp.run, basicSet, basicUpdate, basicIor, basicClear, basicOutcome, run_bind]

/-- What the table should hold afterwards. -/
def basicAfter (d : PyDict Key Val) (k : Key) : BasicOp → Option Val
  | .set k' v => if k = k' then some v else d.get? k
  | .del k' => if k = k' then none else d.get? k
  | .pop k' => if k = k' then none else d.get? k
  | .setdefault k' v => if k = k' then some ((d.get? k).getD v) else d.get? k
  | .update e => (e.get? k).or (d.get? k)
  | .ior e => (e.get? k).or (d.get? k)
  | .popitem => PyDict.get? d.dropLast k
  | _ => d.get? k

/-- **C31** What `BasicTypes` holds after an operation is what a dictionary would, whatever the registry holds. -/
theorem C31_contents (op : BasicOp) (hr : op.Real) (s : St A) (k : Key) :
    (op.run s).2.basic.get? k = basicAfter s.basic k op := by
  cases op with
  | set k' v => simp [BasicOp.run, basicSet, run_bind, basicAfter, PyDict.get?_set, eq_comm]
  | del k' =>
    simp only [BasicOp.run, basicDel, run_bind, run_get, run_ite, basicAfter]
    cases h : s.basic.mem k'
    · have := (mem_false_iff _ _).1 h
      by_cases e : k = k'
      · subst e; simp [this]
      · simp [e]
    · cases h2 : s.reg.mem k' <;> simp [h2, PyDict.get?_del, eq_comm]
  | pop k' =>
    simp only [BasicOp.run, basicPop, run_bind, run_get, run_ite, basicAfter]
    cases h : s.basic.mem k'
    · have := (mem_false_iff _ _).1 h
      by_cases e : k = k'
      · subst e; simp [this]
      · simp [e]
    · simp [PyDict.get?_del, eq_comm]
  | popitem =>
    simp only [BasicOp.run, basicPopitem, run_bind, run_get, run_ite, basicAfter]
    cases h : s.basic <;> simp [h]
  | setdefault k' v =>
    simp only [BasicOp.run, basicSetdefault, run_bind, run_get, run_ite, basicAfter]
    cases h : s.basic.mem k'
    · have := (mem_false_iff _ _).1 h
      by_cases e : k = k'
      · subst e; simp [this]
      · simp [e, PyDict.get?_set, Ne.symm e]
    · obtain ⟨w, hw⟩ := (PyDict.mem_iff _ _).mp h
      by_cases e : k = k'
      · subst e; simp [hw]
      · simp [e]
  | update d =>
    simp only [BasicOp.run, basicUpdate, run_bind, run_modify, basicAfter]
    rw [PyDict.get?_update_nodup _ hr]
  | ior d =>
    simp only [BasicOp.run, basicIor, run_modify, basicAfter]
    rw [PyDict.get?_update_nodup _ hr]
  | clear => rfl
  | define t c =>
    simp only [BasicOp.run, defineChecker, basicAfter]
    cases hd : definable t with
    | none => simp
    | some j =>
      simp only [run_bind, run_get, run_ite]
      cases h : s.reg.mem j <;> simp
  | undefine j =>
    simp only [BasicOp.run, undefineChecker, run_bind, run_get, run_ite, basicAfter]
    cases h : s.reg.mem j <;> simp

/-- A key that is not there, popped, and one that is. -/
example : ((BasicOp.pop (.ty "Money")).run Ex.s0).1 = .err .keyError ∧ ((BasicOp.pop (.ty "int")).run Ex.s0).1 = .ok () ∧
    basicAfter Ex.s0.basic (.ty "int") (.pop (.ty "int")) = none := by decide

/-! ## C32 _clear -/

/-- **C32** After `_clear()` the registry is the default table overlaid by the current `BasicTypes`
table and nothing else, whatever was registered before; nothing but the registry changes; a
second `_clear()` changes nothing. -/
theorem C32_clear (s : St A) (hd : s.defaults.keys.Nodup) (hb : s.basic.keys.Nodup) :
    (clearRegistry s).1 = .ok ()
    ∧ (∀ k, (clearRegistry s).2.reg.get? k = (s.basic.get? k).or (s.defaults.get? k))
    ∧ (∃ r, (clearRegistry s).2 = { s with reg := r })
    ∧ clearRegistry (clearRegistry s).2 = clearRegistry s := by
  refine ⟨rfl, fun k => ?_, ⟨_, rfl⟩, rfl⟩
  show (PyDict.update (PyDict.update [] s.defaults) s.basic).get? k = _
  rw [PyDict.get?_update_nodup _ hb, PyDict.get?_update_nodup _ hd]
  simp

/-- **C32** In particular the initial registry is what `_clear()` produces, and no history of
registrations survives it. -/
theorem C32_clear_forgets (h : List RegOp) (E : Ext) (a : A) :
    (clearRegistry (afterReg h (initial E a))).2 = initial E a := by
  obtain ⟨r, hr⟩ := C30_frame h (initial E a)
  rw [hr]
  have key : ∀ (s : St A) r, (clearRegistry { s with reg := r }).2 =
      { s with reg := PyDict.update (PyDict.update [] s.defaults) s.basic } := fun _ _ => rfl
  rw [key]
  simp only [initial]

example : (initial Ex.ext ()).defaults.keys.Nodup ∧ (initial Ex.ext ()).basic.keys.Nodup := by
  constructor <;> decide

/-! ## C33 NamesChecker, InterfaceChecker -/

/-- **C33** `NamesChecker(names, p, **kw)` succeeds iff no listed name is in `kw` with another
permission object; otherwise it raises DuplicationError for a listed name. -/
theorem C33_names_success (names : List Name) (p : Val) (kw : PyDict Name Val) (hkw : kw.keys.Nodup) :
    ((∃ d, namesData names p kw = .ok d) ↔ ∀ n ∈ names, ∀ q, kw.get? n = some q → q = p)
    ∧ (∀ e, namesData names p kw = .error e → ∃ n ∈ names, e = .duplicationName n) := by
  have hkw' : ∀ x, (PyDict.update [] kw).get? x = kw.get? x := by
    intro x; rw [PyDict.get?_update_nodup _ hkw]; simp
  unfold namesData
  constructor
  · rw [addNames_isOk_iff]
    simp only [List.mem_map, Prod.mk.injEq, hkw']
    constructor
    · rintro ⟨_, h⟩ n hn q hq
      exact (h n p q ⟨n, hn, rfl, rfl⟩ hq).symm
    · intro h
      refine ⟨?_, ?_⟩
      · rintro x a b ⟨_, _, _, rfl⟩ ⟨_, _, _, rfl⟩; rfl
      · rintro x a q ⟨n, hn, rfl, rfl⟩ hq; exact (h n hn q hq).symm
  · intro e he
    obtain ⟨n, q, h1, h2⟩ := addNames_error _ _ _ he
    simp only [List.mem_map, Prod.mk.injEq] at h1
    obtain ⟨m, hm, rfl, _⟩ := h1
    exact ⟨m, hm, h2⟩

/-- **C33** The dictionary built: listed names get `p`, other names what `kw` says, no other names. -/
theorem C33_names_content (names : List Name) (p : Val) (kw : PyDict Name Val) (hkw : kw.keys.Nodup)
    (d : PyDict Name Val) (h : namesData names p kw = .ok d) (x : Name) :
    d.get? x = if x ∈ names then some p else kw.get? x := by
  have hkw' : (PyDict.update [] kw).get? x = kw.get? x := by
    rw [PyDict.get?_update_nodup _ hkw]; simp
  obtain ⟨h1, h2⟩ := addNames_ok _ _ _ h x
  split
  · next hx => exact (h1 p (by simpa using hx)).1
  · next hx =>
    rw [h2 ?_, hkw']
    intro q hq
    simp only [List.mem_map, Prod.mk.injEq] at hq
    obtain ⟨m, hm, rfl, _⟩ := hq
    exact hx hm

/-- **C33** Order and repetition of names do not matter. -/
theorem C33_order_irrelevant (names names' : List Name) (p : Val) (kw : PyDict Name Val) (hkw : kw.keys.Nodup)
    (hsame : ∀ n, n ∈ names ↔ n ∈ names') :
    ((∃ d, namesData names p kw = .ok d) ↔ (∃ d, namesData names' p kw = .ok d))
    ∧ ∀ d d', namesData names p kw = .ok d → namesData names' p kw = .ok d' → ∀ x, d.get? x = d'.get? x := by
  constructor
  · rw [(C33_names_success names p kw hkw).1, (C33_names_success names' p kw hkw).1]
    simp only [hsame]
  · intro d d' h h' x
    rw [C33_names_content names p kw hkw d h, C33_names_content names' p kw hkw d' h']
    simp only [hsame]

/-- **C33** The checker built protects reads by that dictionary and allows no writes at all, for
every object, interaction and policy. -/
theorem C33_names_checker (X : Ctx A) (H : Val → Name → M A Bool) (names : List Name) (p : Val)
    (kw : PyDict Name Val) (hkw : kw.keys.Nodup) (s s' : St A) (c : Val)
    (h : namesChecker names p kw s = (.ok c, s')) :
    (∀ n, permissionId s' c n = lookupPy (if n ∈ names then [(n, p)] else kw) n)
    ∧ (∀ n, setattrPermissionId s' c n = none)
    ∧ (∀ o n, chkCheck X H .setattr c o n s' = (.err (.forbidden n o), s'))
    ∧ (∀ id, s'.reg.get? id = s.reg.get? id) := by
  unfold namesChecker checkerOf at h
  cases hd : namesData names p kw with
  | error e => rw [hd] at h; cases h
  | ok d =>
    rw [hd] at h
    simp only [newDict, newChecker, run_bind, run_get, run_modify, run_pure] at h
    cases h
    have hc := C33_names_content names p kw hkw d hd
    refine ⟨fun n => ?_, fun n => ?_, fun o n => ?_, fun id => rfl⟩
    · simp only [permissionId]
      have hne : s.nextId ≠ s.nextId + 1 := by omega
      simp only [hne, if_false, if_true]
      unfold lookupPy
      rw [hc n]
      by_cases hn : n ∈ names
      · simp [hn, PyDict.get?]
      · simp [hn]
    · simp [setattrPermissionId, lookupPy]
    · apply (C02_write_default_deny X H H _ 0 _ 0 _ o n _).1
      intro q hq
      have := hq.1
      simp at this

/-- A checker with three names, one of them given a permission by keyword. -/
example : namesData ["a", "b", "a"] Ex.view [("c", Ex.edit)] = .ok [("c", Ex.edit), ("a", Ex.view), ("b", Ex.view)]
    ∧ namesData ["a", "c"] Ex.view [("c", Ex.edit)] = .error (.duplicationName "c") := ⟨rfl, rfl⟩

/-- **C33** Permissions are compared by identity: an equal but distinct string raises
DuplicationError. -/
theorem C33_identity_not_equality :
    namesData ["a"] (.str 1 "view") [("a", .str 2 "view")] = .error (.duplicationName "a") := rfl

/-! ## C34 MultiChecker -/

/-- The (name, permission) pairs mentioned by a specification. -/
def Mentions (specs : List MSpec) (n : Name) (p : Val) : Prop :=
  ∃ sp ∈ specs, (∃ ns, sp = .names ns p ∧ n ∈ ns) ∨ (∃ d, sp = .dict d ∧ (n, p) ∈ d)

theorem mentions_iff (specs : List MSpec) (n : Name) (p : Val) :
    (n, p) ∈ specs.flatMap MSpec.pairs ↔ Mentions specs n p := by
  simp only [List.mem_flatMap, Mentions]
  constructor
  · rintro ⟨sp, h1, h2⟩
    refine ⟨sp, h1, ?_⟩
    cases sp with
    | names ns q =>
      simp only [MSpec.pairs, List.mem_map, Prod.mk.injEq] at h2
      obtain ⟨m, hm, rfl, rfl⟩ := h2
      exact .inl ⟨ns, rfl, hm⟩
    | dict d => right; exact ⟨d, rfl, h2⟩
  · rintro ⟨sp, h1, h2⟩
    refine ⟨sp, h1, ?_⟩
    rcases h2 with ⟨ns, rfl, h2⟩ | ⟨d, rfl, h2⟩
    · simp [MSpec.pairs, h2]
    · exact h2

/-- **C34** `MultiChecker(specs)` succeeds iff no name is mentioned with two different permission
objects, raises DuplicationError otherwise, and on success maps exactly the mentioned names, each
to its permission. -/
theorem C34_multi (specs : List MSpec) :
    ((∃ d, multiData specs = .ok d) ↔ ∀ n p q, Mentions specs n p → Mentions specs n q → p = q)
    ∧ (∀ e, multiData specs = .error e → ∃ n p, Mentions specs n p ∧ e = .duplicationName n)
    ∧ (∀ d, multiData specs = .ok d → ∀ n p, d.get? n = some p ↔ Mentions specs n p) := by
  unfold multiData
  simp only [multiLoop_eq, ← mentions_iff]
  refine ⟨?_, ?_, ?_⟩
  · rw [addNames_isOk_iff]
    simp
  · intro e he
    obtain ⟨n, p, h1, h2⟩ := addNames_error _ _ _ he
    exact ⟨n, p, h1, h2⟩
  · intro d h n p
    obtain ⟨h1, h2⟩ := addNames_ok _ _ _ h n
    constructor
    · intro hg
      apply Classical.byContradiction
      intro hn
      by_cases hx : ∃ q, (n, q) ∈ specs.flatMap MSpec.pairs
      · obtain ⟨q, hq⟩ := hx
        rw [(h1 q hq).1] at hg; cases hg; exact hn hq
      · rw [h2 (fun q hq => hx ⟨q, hq⟩)] at hg; cases hg
    · intro hp; exact (h1 p hp).1

/-- **C34** Order and grouping do not matter. -/
theorem C34_order_irrelevant (specs specs' : List MSpec)
    (hsame : ∀ n p, Mentions specs n p ↔ Mentions specs' n p) :
    ((∃ d, multiData specs = .ok d) ↔ (∃ d, multiData specs' = .ok d))
    ∧ ∀ d d', multiData specs = .ok d → multiData specs' = .ok d' → ∀ x, d.get? x = d'.get? x := by
  constructor
  · rw [(C34_multi specs).1, (C34_multi specs').1]
    simp only [hsame]
  · intro d d' h h' x
    have e1 := (C34_multi specs).2.2 d h x
    have e2 := (C34_multi specs').2.2 d' h' x
    apply Option.ext
    intro a
    rw [e1 a, e2 a, hsame]

/-- **C34** The checker built by `MultiChecker` allows no writes. -/
theorem C34_no_writes (X : Ctx A) (H : Val → Name → M A Bool) (specs : List MSpec) (s s' : St A) (c : Val)
    (h : multiChecker specs s = (.ok c, s')) (o : Val) (n : Name) :
    chkCheck X H .setattr c o n s' = (.err (.forbidden n o), s') := by
  unfold multiChecker checkerOf at h
  cases hd : multiData specs with
  | error e => rw [hd] at h; cases h
  | ok d =>
    rw [hd] at h
    simp only [newDict, newChecker, run_bind, run_get, run_modify, run_pure] at h
    cases h
    apply (C02_write_default_deny X H H _ 0 _ 0 _ o n _).1
    intro q hq
    have := hq.1
    simp at this

example : multiData [.names ["a", "b"] Ex.view, .dict [("c", Ex.edit), ("a", Ex.view)]]
      = .ok [("a", Ex.view), ("b", Ex.view), ("c", Ex.edit)]
    ∧ multiData [.names ["a", "b"] Ex.view, .dict [("a", Ex.edit)]] = .error (.duplicationName "a") := ⟨rfl, rfl⟩

end ZS.Props
