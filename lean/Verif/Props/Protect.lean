import Verif.Lemmas.Protect
import Verif.Examples.World

/-!
# C35-C37: declarations on classes
-/

namespace ZS.Props
open Spec
variable {A : Type}

/-- Carry out a declaration: `protectName` or `protectSetAttribute`. -/
def runDecl (d : Decl) : M A Unit :=
  if d.write then protectSetAttribute (keyVal d.key) d.name d.perm else protectName (keyVal d.key) d.name d.perm

/-- Carry out a history of declarations, exceptions being caught. -/
def afterDecl : List Decl → St A → St A
  | [], s => s
  | d :: r, s => afterDecl r (runDecl d s).2

theorem runDecl_eq (d : Decl) : (runDecl d : M A Unit) = declare d.write (keyVal d.key) d.name d.perm := rfl

theorem afterDecl_inv (h : List Decl) (s : St A) (hh : Heap s) (k : Key) (ha : Apart s k) :
    Heap (afterDecl h s) ∧ Apart (afterDecl h s) k := by
  induction h generalizing s with
  | nil => exact ⟨hh, ha⟩
  | cons d r ih =>
    have := declare_step d.write s hh d.key d.name d.perm
    exact ih _ this.1 (this.2.1 k ha)

/-- The stored requirement after a history, for a class that is unregistered or has a checker of
its own. -/
theorem afterDecl_stored (h : List Decl) (s : St A) (hh : Heap s) (k : Key) (ha : Apart s k)
    (hk : ∀ c, s.reg.get? k = some c → checkerDicts c ≠ none) (w : Bool) (n : Name) :
    (∀ p, Last h k w n p → stored w (afterDecl h s) k n = some (translate p))
    ∧ (Never h k w n → stored w (afterDecl h s) k n = stored w s k n) := by
  induction h generalizing s with
  | nil =>
    refine ⟨?_, fun _ => rfl⟩
    rintro p ⟨h1, h2, h3, _⟩
    cases h1 <;> cases h3
  | cons d r ih =>
    have hst := declare_step d.write s hh d.key d.name d.perm
    have hs : stored w (runDecl d s).2 k n =
        if d.key = k ∧ d.write = w ∧ d.name = n then some (translate d.perm) else stored w s k n := by
      rw [runDecl_eq]
      by_cases hdk : d.key = k
      · rw [← hdk] at hk ha ⊢
        exact (hst.2.2.2 hk).2.2.1 ha w d.key n
      · rw [if_neg (fun h => hdk h.1)]
        by_cases hb : ∃ c, s.reg.get? d.key = some c ∧ checkerDicts c = none
        · exact hst.2.2.1 hb w k n
        · exact (hst.2.2.2 (fun c hc hn => hb ⟨c, hc, hn⟩)).2.2.2 k (Ne.symm hdk) ha w n
    have hk' : ∀ c, (runDecl d s).2.reg.get? k = some c → checkerDicts c ≠ none := by
      rw [runDecl_eq]
      intro c hc
      by_cases hdk : d.key = k
      · rw [← hdk] at hk hc
        obtain ⟨c', hc', hn⟩ := (hst.2.2.2 hk).2.1
        rw [hc] at hc'; cases hc'; exact hn
      · -- the entry of another key is untouched
        have : (declare d.write (keyVal d.key) d.name d.perm s).2.reg.get? k = s.reg.get? k := by
          cases hg : s.reg.get? d.key with
          | none =>
            rw [declare_ok _ _ _ _ _ _ _ _ _ (getOrCreate_new s d.key hg) rfl]
            simp only [created, PyDict.get?_set, if_neg hdk]
          | some c0 =>
            by_cases hn : c0 = .none
            · subst hn
              obtain ⟨e, s', h1, h2, _, _⟩ := getOrCreate_none s d.key hg
              rw [declare_err _ _ _ _ _ _ _ h1]
              simp only
              rw [h2]
            · have hgo := getOrCreate_old s d.key c0 hg hn
              cases hcd : checkerDicts c0 with
              | none =>
                obtain ⟨e, he⟩ := declare_bad d.write s s (keyVal d.key) d.name d.perm c0 hgo hcd
                rw [he]
              | some gs => rw [declare_ok _ _ _ _ _ _ _ gs.1 gs.2 hgo hcd]
        rw [this] at hc
        exact hk c hc
    obtain ⟨i1, i2⟩ := ih (runDecl d s).2 hst.1 (hst.2.1 k ha) hk'
    constructor
    · rintro p ⟨h1, h2, he, hl⟩
      cases h1 with
      | nil =>
        simp only [List.nil_append, List.cons.injEq] at he
        obtain ⟨rfl, rfl⟩ := he
        simp only [afterDecl]
        rw [i2 hl, hs]
        simp
      | cons d' h1 =>
        simp only [List.cons_append, List.cons.injEq] at he
        exact i1 p ⟨h1, h2, he.2, hl⟩
    · intro hn
      simp only [afterDecl]
      rw [i2 (fun d' hd' => hn d' (by simp [hd'])), hs, if_neg (hn d (by simp))]

/-- **C35** After any history of declarations on any classes and modules, the permission a class
that was unregistered at the start requires for reading (writing) a name is what the last
read (write) declaration for that class and name means, and without such a declaration there is
none.  Declarations of the other kind, for other names and for other classes have no influence. -/
theorem C35_last_declaration (h : List Decl) (s : St A) (hh : Heap s) (k : Key) (hk : s.reg.get? k = none)
    (w : Bool) (n : Name) :
    (∀ p, Last h k w n p → Means p (required w (afterDecl h s) k n))
    ∧ (Never h k w n → required w (afterDecl h s) k n = none) := by
  obtain ⟨h1, h2⟩ := afterDecl_stored h s hh k (by intro c g st hc; rw [hk] at hc; cases hc)
    (by intro c hc; rw [hk] at hc; cases hc) w n
  constructor
  · intro p hl
    rw [means_iff, required_eq, h1 p hl]
  · intro hn
    rw [required_eq, h2 hn]
    simp [stored, hk, dropNone]

/-- Either there is a last declaration or there is none, so the theorem covers every case. -/
theorem last_or_never (h : List Decl) (k : Key) (w : Bool) (n : Name) :
    (∃ p, Last h k w n p) ∨ Never h k w n := by
  induction h with
  | nil => right; intro d hd; cases hd
  | cons d r ih =>
    rcases ih with ⟨p, h1, h2, he, hl⟩ | hn
    · exact .inl ⟨p, d :: h1, h2, by rw [he]; rfl, hl⟩
    · by_cases hd : d.key = k ∧ d.write = w ∧ d.name = n
      · obtain ⟨rfl, rfl, rfl⟩ := hd
        exact .inl ⟨d.perm, [], r, rfl, hn⟩
      · right
        intro d' hd'
        cases hd' with
        | head => exact hd
        | tail _ h => exact hn d' h

/-- **C35** A declaration on a class that is unregistered or has a `Checker` always succeeds. -/
theorem C35_succeeds (d : Decl) (s : St A) (hh : Heap s)
    (hk : ∀ c, s.reg.get? d.key = some c → checkerDicts c ≠ none) : (runDecl d s).1 = .ok () :=
  ((declare_step d.write s hh d.key d.name d.perm).2.2.2 hk).1

/-- The dictionaries of the default registry exist. -/
theorem heap_initial (E : Ext) (a : A) : Heap (initial E a) := by
  intro k c g st hk hd
  have hm := PyDict.mem_of_get? hk
  have : ∀ p ∈ PyDict.update (PyDict.update [] defaultCheckers) basicTypes,
      ∀ gs ∈ checkerDicts p.2, gs.1 < 100 ∧ gs.2 < 100 := by decide
  exact this (k, c) hm (g, st) hd

/-- A history that overrides a declaration, declares both kinds, and mentions another class. -/
example :
    let h : List Decl := [⟨.ty "Acct", false, "balance", Ex.view⟩, ⟨.ty "Other", false, "balance", Ex.edit⟩,
      ⟨.ty "Acct", true, "balance", Ex.edit⟩, ⟨.ty "Acct", false, "balance", .str 7 "zope.Public"⟩]
    Heap Ex.s0 ∧ Ex.s0.reg.get? (.ty "Acct") = none
    ∧ required false (afterDecl h Ex.s0) (.ty "Acct") "balance" = some publicV
    ∧ required true (afterDecl h Ex.s0) (.ty "Acct") "balance" = some Ex.edit
    ∧ required false (afterDecl h Ex.s0) (.ty "Other") "balance" = some Ex.edit
    ∧ required false (afterDecl h Ex.s0) (.ty "Acct") "owner" = none :=
  ⟨heap_initial _ _, by decide, by decide, by decide, by decide, by decide⟩

/-! ## C37 -/

/-- **C37** A declaration on one class leaves what every other class requires unchanged, provided the
dictionaries of the class declared on (or those of the other class) are not shared.  The exact
effect on classes that do share one is `C37_exact`; see also `C37_shared_checker`. -/
theorem C37_frame (d : Decl) (s : St A) (hh : Heap s) (k : Key) (hne : k ≠ d.key)
    (ha : Apart s d.key ∨ Apart s k) (w : Bool) (n : Name) :
    required w (runDecl d s).2 k n = required w s k n := by
  rw [required_eq, required_eq, runDecl_eq]
  have hst := declare_step d.write s hh d.key d.name d.perm
  congr 1
  by_cases hb : ∃ c, s.reg.get? d.key = some c ∧ checkerDicts c = none
  · exact hst.2.2.1 hb w k n
  · have hb' := hst.2.2.2 (fun c hc hn => hb ⟨c, hc, hn⟩)
    rcases ha with ha | ha
    · rw [hb'.2.2.1 ha w k n, if_neg (fun h => hne h.1.symm)]
    · exact hb'.2.2.2 k hne ha w n

/-- **C37** For whole histories: a class whose dictionaries are its own is affected by its own
declarations only. -/
theorem C37_history (h : List Decl) (s : St A) (hh : Heap s) (k : Key) (ha : Apart s k)
    (hno : ∀ d ∈ h, d.key ≠ k) (w : Bool) (n : Name) :
    required w (afterDecl h s) k n = required w s k n := by
  induction h generalizing s with
  | nil => rfl
  | cons d r ih =>
    have hst := declare_step d.write s hh d.key d.name d.perm
    simp only [afterDecl]
    rw [ih (runDecl d s).2 hst.1 (hst.2.1 k ha) (fun d' hd' => hno d' (by simp [hd'])),
      C37_frame d s hh k (Ne.symm (hno d (by simp))) (.inr ha)]

/-- **C37** A class declared on for the first time has dictionaries of its own from then on. -/
theorem C37_new_class_apart (h : List Decl) (s : St A) (hh : Heap s) (k : Key) (hk : s.reg.get? k = none) :
    Apart (afterDecl h s) k :=
  (afterDecl_inv h s hh k (by intro c g st hc; rw [hk] at hc; cases hc)).2

/-- **C37** With the default registry the claim is false: `set` and `frozenset` share one checker,
so declaring a mutator of `set` public declares it for `frozenset` too; likewise all kinds of
functions share theirs. -/
theorem C37_shared_checker :
    required false (runDecl ⟨.ty "set", false, "add", publicV⟩ Ex.s0).2 (.ty "frozenset") "add" = some publicV
    ∧ required false Ex.s0 (.ty "frozenset") "add" = none
    ∧ required true (runDecl ⟨.ty "function", true, "x", publicV⟩ Ex.s0).2 (.ty "method") "x" = some publicV := by
  refine ⟨by decide, by decide, by decide⟩

/-- `dict` has its own dictionaries in the default registry: a case with a registered class. -/
example : required false (runDecl ⟨.ty "dict", false, "pop", publicV⟩ Ex.s0).2 (.ty "list") "pop" = none := by decide

/-! ## C36 -/

/-- **C36** `protectLikeUnto(C, D)` for an unregistered `C` gives `C` exactly the requirements `D`
has at that moment, changes nothing for any other class, and leaves `C` with dictionaries of its
own; without a checker for `D` nothing happens. -/
theorem C36_like_unto (s : St A) (hh : Heap s) (k kl : Key) (hk : s.reg.get? k = none) :
    (s.reg.get? kl = none → protectLikeUnto (keyVal k) (keyVal kl) s = (.ok (), s))
    ∧ (∀ c, s.reg.get? kl = some c → checkerDicts c ≠ none →
        (protectLikeUnto (keyVal k) (keyVal kl) s).1 = .ok ()
        ∧ (∀ w n, required w (protectLikeUnto (keyVal k) (keyVal kl) s).2 k n = required w s kl n)
        ∧ (∀ w n k', k' ≠ k → required w (protectLikeUnto (keyVal k) (keyVal kl) s).2 k' n = required w s k' n)
        ∧ Heap (protectLikeUnto (keyVal k) (keyVal kl) s).2
        ∧ Apart (protectLikeUnto (keyVal k) (keyVal kl) s).2 k) := by
  constructor
  · intro hl
    simp [protectLikeUnto, definable_keyVal, getCheckerFor, hl, run_bind, likeFrom]
  · intro c hc hcd
    cases hd : checkerDicts c with
    | none => exact absurd hd hcd
    | some gs =>
      obtain ⟨ug, us⟩ := gs
      have hcn : c ≠ .none := by rintro rfl; cases hd
      have hb := hh kl c ug us hc hd
      have hnek : k ≠ kl := by rintro rfl; rw [hk] at hc; cases hc
      have hnew := getOrCreate_new s k hk
      -- the two copies
      obtain ⟨d1, e1, g1⟩ := copyDict_spec ug s.nextId (by omega) (created s k)
      obtain ⟨d2, e2, g2⟩ := copyDict_spec us (s.nextId + 1) (by omega)
        { created s k with dicts := fun i => if i = s.nextId then d1 else (created s k).dicts i }
      have hrun : protectLikeUnto (keyVal k) (keyVal kl) s = (.ok (), { created s k with
          dicts := fun i => if i = s.nextId + 1 then d2 else if i = s.nextId then d1 else (created s k).dicts i }) := by
        have h1 : protectLikeUnto (keyVal k) (keyVal kl) s = likeFrom (keyVal k) c s := by
          simp [protectLikeUnto, definable_keyVal, getCheckerFor, hc, run_bind]
        have h2 : likeFrom (keyVal k) c s = likeCopy (keyVal k) ug us s := by
          unfold likeFrom
          rw [hd]
          exact congrFun (if_neg hcn) s
        rw [h1, h2]
        simp only [likeCopy, run_bind, hnew, checkerDicts, e1]
        rw [e2]
      have hh1 := heap_created hh k
      have hap : Apart (created s k) k := apart_created hh (by intro c g st hc; rw [hk] at hc; cases hc) k
      have hlow : ∀ i, i < s.nextId → (created s k).dicts i = s.dicts i := by
        intro i hi; simp only [created]; rw [if_neg (by omega), if_neg (by omega)]
      rw [hrun]
      refine ⟨rfl, ?_, ?_, heap_mono hh1 rfl (Nat.le_refl _), apart_mono hap rfl⟩
      · intro w n
        rw [required_eq, required_eq]
        congr 1
        have hreg : (created s k).reg.get? k = some (.checker (s.nextId + 2) s.nextId (s.nextId + 1)) := by
          simp [created]
        unfold stored
        have hcs : ∀ i g st, checkerDicts (.checker i g st) = some (g, st) := fun _ _ _ => rfl
        simp only [hreg, hcs, hc, hd]
        have z1 : (created s k).dicts s.nextId = [] := by simp only [created]; split <;> simp
        have z2 : (created s k).dicts (s.nextId + 1) = [] := by simp [created]
        cases w with
        | false =>
          simp only [side, Bool.false_eq_true, if_false]
          rw [if_neg (by omega), if_pos trivial, g1 n, hlow ug (by omega), z1]
          simp
        | true =>
          simp only [side, if_true]
          rw [g2 n]
          simp only [if_neg (show us ≠ s.nextId by omega), if_neg (show s.nextId + 1 ≠ s.nextId by omega)]
          rw [hlow us (by omega), z2]
          simp
      · intro w n k' hne
        rw [required_eq, required_eq]
        congr 1
        rw [← stored_created hh k hk w k' n]
        unfold stored
        simp only
        cases hc' : (created s k).reg.get? k' with
        | none => rfl
        | some c' =>
          simp only
          cases hd' : checkerDicts c' with
          | none => rfl
          | some gs' =>
            obtain ⟨g', st'⟩ := gs'
            have hreg : (created s k).reg.get? k = some (.checker (s.nextId + 2) s.nextId (s.nextId + 1)) := by
              simp [created]
            have := (hap _ _ _ hreg rfl).2 k' c' g' st' hne hc' hd'
            simp only
            rw [if_neg (by unfold side; split <;> omega), if_neg (by unfold side; split <;> omega)]

/-- **C36** The copy is by value: whatever is declared later on other classes (in particular on
`D`) does not change `C`, and whatever is declared later on `C` does not change any other class. -/
theorem C36_by_value (s : St A) (hh : Heap s) (k kl : Key) (hk : s.reg.get? k = none) (c : Val)
    (hc : s.reg.get? kl = some c) (hcd : checkerDicts c ≠ none) (h : List Decl) (w : Bool) (n : Name) :
    ((∀ d ∈ h, d.key ≠ k) →
      required w (afterDecl h (protectLikeUnto (keyVal k) (keyVal kl) s).2) k n = required w s kl n)
    ∧ ((∀ d ∈ h, d.key = k) → ∀ k', k' ≠ k →
      required w (afterDecl h (protectLikeUnto (keyVal k) (keyVal kl) s).2) k' n = required w s k' n) := by
  obtain ⟨_, h2, h3, h4, h5⟩ := (C36_like_unto s hh k kl hk).2 c hc hcd
  constructor
  · intro hno
    rw [C37_history h _ h4 k h5 hno, h2]
  · intro hall k' hne
    rw [← h3 w n k' hne]
    generalize (protectLikeUnto (keyVal k) (keyVal kl) s).2 = s1 at h4 h5
    induction h generalizing s1 with
    | nil => rfl
    | cons d r ih =>
      have hst := declare_step d.write s1 h4 d.key d.name d.perm
      simp only [afterDecl]
      have hdk : d.key = k := hall d (by simp)
      rw [ih (fun d' hd' => hall d' (by simp [hd'])) (runDecl d s1).2 hst.1 (hst.2.1 k h5),
        C37_frame d s1 h4 k' (by rw [hdk]; exact hne) (.inl (by rw [hdk]; exact h5))]

/-- Copying the protection of `dict` onto a new class. -/
example : required false (protectLikeUnto (.type "MyDict") (.type "dict") Ex.s0).2 (.ty "MyDict") "keys" = some publicV
    ∧ required false (protectLikeUnto (.type "MyDict") (.type "dict") Ex.s0).2 (.ty "MyDict") "pop" = none := by
  constructor <;> decide

/-- **C36** A class registered as needing no protection has nothing to copy: AttributeError, and
nothing has happened. -/
theorem C36_no_checker (s : St A) (t : Val) (kl : Key) (c : Val) (hc : s.reg.get? kl = some c) (hn : c ≠ .none)
    (hcd : checkerDicts c = none) :
    protectLikeUnto t (keyVal kl) s = (.err (.attributeError "get_permissions"), s) := by
  simp [protectLikeUnto, definable_keyVal, getCheckerFor, hc, run_bind, hn, hcd, likeFrom]

end ZS.Props
