import Verif.Lemmas.Checks
import Verif.Model.Proxy
import Verif.Examples.World

/-!
# C01-C03: decisions of a single checker
-/

namespace ZS.Props
open Spec
variable {A : Type}

/-- **C01** Reading a name: outcome and resulting state of `checker.check(obj, name)` and
`check_getattr` are exactly those of the decision table `ReadSpec`, for every permission
dictionary, object, name, policy, interaction state and default list, in both implementations. -/
theorem C01_read_check_table (X : Ctx A) (H : Val → Name → M A Bool) (k : CheckKind) (hk : k ≠ .setattr)
    (id g st : Nat) (o : Val) (n : Name) (s : St A) (r : Res Unit × St A) :
    chkCheck X H k (.checker id g st) o n s = r ↔ ReadSpec X H s (s.dicts g) o n r := by
  have : chkCheck X H k (.checker id g st) o n = plainCheck X H g o n := by
    cases k <;> first | rfl | exact absurd rfl hk
  rw [this, plainCheck_spec]

/-- **C01** The check grants exactly in the documented cases. -/
theorem C01_granted_iff (X : Ctx A) (H : Val → Name → M A Bool) (k : CheckKind) (hk : k ≠ .setattr)
    (id g st : Nat) (o : Val) (n : Name) (s : St A) :
    (chkCheck X H k (.checker id g st) o n s).1 = .ok () ↔
      Declared X.impl (s.dicts g) n publicV
      ∨ (∃ p ix s', Declared X.impl (s.dicts g) n p ∧ p ≠ publicV ∧
          (s.threads X.tid).interaction = some ix ∧ IxAnswer X.W s p o ix (.ok true) s')
      ∨ (Undeclared X.impl (s.dicts g) n ∧ Available X.impl s.avail n)
      ∨ (Undeclared X.impl (s.dicts g) n ∧ ¬ Available X.impl s.avail n ∧ n = "__iter__" ∧
          (H o n s).1 = .ok false) := by
  have key := C01_read_check_table X H k hk id g st o n s
  constructor
  · intro h
    have hs := (key _).mp rfl
    rcases hrun : chkCheck X H k (.checker id g st) o n s with ⟨r1, s1⟩
    rw [hrun] at h hs
    simp only at h
    subst h
    cases hs with
    | declared hd hp =>
      cases hp with
      | isPublic h => left; rw [← h]; exact hd
      | allowed h1 h2 h3 => right; left; exact ⟨_, _, _, hd, h1, h2, h3⟩
    | byDefault h1 h2 => exact .inr (.inr (.inl ⟨h1, h2⟩))
    | noIter h1 h2 h3 h4 => exact .inr (.inr (.inr ⟨h1, h2, h3, by rw [h4]⟩))
  · rintro (h | ⟨p, ix, s', h1, h2, h3, h4⟩ | ⟨h1, h2⟩ | ⟨h1, h2, h3, h4⟩)
    · rw [(key _).mpr (.declared h (.isPublic rfl))]
    · rw [(key _).mpr (.declared h1 (.allowed h2 h3 h4))]
    · rw [(key _).mpr (.byDefault h1 h2)]
    · rw [(key _).mpr (.noIter h1 h2 h3 (Prod.ext h4 rfl))]

/-- **C01** `Unauthorized` is raised for a declared name the interaction refuses, carrying object,
name and permission; an undeclared name that is not available raises `ForbiddenAttribute` and
changes nothing; without an interaction a non-public name never gets through. -/
theorem C01_refusals (X : Ctx A) (H : Val → Name → M A Bool) (k : CheckKind) (hk : k ≠ .setattr)
    (id g st : Nat) (o : Val) (n : Name) (s : St A) :
    (∀ p ix s', Declared X.impl (s.dicts g) n p → p ≠ publicV →
        (s.threads X.tid).interaction = some ix → IxAnswer X.W s p o ix (.ok false) s' →
        chkCheck X H k (.checker id g st) o n s = (.err (.unauthorized o n p), s'))
    ∧ (Undeclared X.impl (s.dicts g) n → ¬ Available X.impl s.avail n → n ≠ "__iter__" →
        chkCheck X H k (.checker id g st) o n s = (.err (.forbidden n o), s))
    ∧ (∀ p, Declared X.impl (s.dicts g) n p → p ≠ publicV → (s.threads X.tid).interaction = none →
        chkCheck X H k (.checker id g st) o n s = (.err (.attributeError "interaction"), s)) := by
  have key := C01_read_check_table X H k hk id g st o n s
  exact ⟨fun p ix s' h1 h2 h3 h4 => (key _).mpr (.declared h1 (.refused h2 h3 h4)),
    fun h1 h2 h3 => (key _).mpr (.forbidden h1 h2 h3),
    fun p h1 h2 h3 => (key _).mpr (.declared h1 (.noInteraction h2 h3))⟩

/-- A non-trivial instance: a user's interaction refuses "b" and knows nothing of "zzz". -/
example : Declared (Ex.X .c).impl ((Ex.s1 (some (.obj 50))).dicts 30) "c" Ex.edit ∧ Ex.edit ≠ publicV
    ∧ ((Ex.s1 (some (.obj 50))).threads 0).interaction = some (.obj 50)
    ∧ Undeclared (Ex.X .py).impl ((Ex.s1 none).dicts 30) "n"
    ∧ ¬ Available (Ex.X .py).impl (Ex.s1 none).avail "n" := by
  refine ⟨⟨by decide, by decide⟩, by decide, rfl, ?_, ?_⟩
  · intro p hp
    have : p = .none := by
      have := hp.1; rw [show ((Ex.s1 none).dicts 30).get? "n" = some Val.none by decide] at this
      cases this; rfl
    exact hp.2 rfl this
  · intro h; exact absurd h.1 (by decide)

/-- **C02** Writing a name: `check_setattr` follows `WriteSpec`, which consults only the write
dictionary and grants nothing by default. -/
theorem C02_write_check_table (X : Ctx A) (H : Val → Name → M A Bool) (id g st : Nat) (o : Val) (n : Name)
    (s : St A) (r : Res Unit × St A) :
    chkCheck X H .setattr (.checker id g st) o n s = r ↔ WriteSpec X s (s.dicts st) o n r :=
  plainSetattr_spec X st o n s r

/-- **C02** A write is granted only on an explicit declaration. -/
theorem C02_write_granted_iff (X : Ctx A) (H : Val → Name → M A Bool) (id g st : Nat) (o : Val) (n : Name)
    (s : St A) :
    (chkCheck X H .setattr (.checker id g st) o n s).1 = .ok () ↔
      Declared X.impl (s.dicts st) n publicV
      ∨ (∃ p ix s', Declared X.impl (s.dicts st) n p ∧ p ≠ publicV ∧
          (s.threads X.tid).interaction = some ix ∧ IxAnswer X.W s p o ix (.ok true) s') := by
  have key := C02_write_check_table X H id g st o n s
  constructor
  · intro h
    have hs := (key _).mp rfl
    rcases hrun : chkCheck X H .setattr (.checker id g st) o n s with ⟨r1, s1⟩
    rw [hrun] at h hs
    simp only at h
    subst h
    cases hs with
    | declared hd hp =>
      cases hp with
      | isPublic h => left; rw [← h]; exact hd
      | allowed h1 h2 h3 => right; exact ⟨_, _, _, hd, h1, h2, h3⟩
  · rintro (h | ⟨p, ix, s', h1, h2, h3, h4⟩)
    · rw [(key _).mpr (.declared h (.isPublic rfl))]
    · rw [(key _).mpr (.declared h1 (.allowed h2 h3 h4))]

/-- **C02** Undeclared names are never writable, and the read dictionary is irrelevant. -/
theorem C02_write_default_deny (X : Ctx A) (H H' : Val → Name → M A Bool) (id id' g g' st : Nat) (o : Val)
    (n : Name) (s : St A) :
    (Undeclared X.impl (s.dicts st) n →
      chkCheck X H .setattr (.checker id g st) o n s = (.err (.forbidden n o), s))
    ∧ chkCheck X H .setattr (.checker id g st) o n s = chkCheck X H' .setattr (.checker id' g' st) o n s := by
  refine ⟨fun h => (C02_write_check_table X H id g st o n s _).mpr (.forbidden h), ?_⟩
  rw [(C02_write_check_table X H' id' g' st o n s _).mpr ((C02_write_check_table X H id g st o n s _).mp rfl)]

/-- "a" is publicly readable but not writable, "w" is writable only with permission. -/
example : Undeclared (Ex.X .c).impl ((Ex.s1 none).dicts 31) "a"
    ∧ Declared (Ex.X .c).impl ((Ex.s1 none).dicts 30) "a" publicV
    ∧ (chkCheck (Ex.X .c) (hasattrX (Ex.X .c)) .setattr Ex.c1 (.obj 1) "w" (Ex.s1 (some (.obj 50)))).1 = .ok () := by
  refine ⟨?_, ⟨by decide, by decide⟩, by decide⟩
  intro p hp
  have := hp.1
  rw [show ((Ex.s1 none).dicts 31).get? "a" = none by decide] at this
  cases this

/-- No stored `None` in a permission dictionary. -/
def NoNone (d : PyDict Name Val) : Prop := ∀ n, d.get? n ≠ some .none

/-- **C03** The compiled and the pure-Python checker have the same outcome and effects for the
same dictionaries, if no `None` is stored, the default list has only names beginning with two
underscores, and both see the same answer from `hasattr(obj, '__iter__')`. -/
theorem C03_checkers_agree (Xp Xc : Ctx A) (hp : Xp.impl = .py) (hc : Xc.impl = .c)
    (hW : Xp.W = Xc.W) (ht : Xp.tid = Xc.tid) (Hp Hc : Val → Name → M A Bool)
    (k : CheckKind) (id g st : Nat) (o : Val) (n : Name) (s : St A)
    (hg : NoNone (s.dicts g)) (hst : NoNone (s.dicts st))
    (hav : ∀ m ∈ s.avail, ∃ rest, m = "__" ++ rest)
    (hH : Hp o "__iter__" s = Hc o "__iter__" s) :
    chkCheck Xp Hp k (.checker id g st) o n s = chkCheck Xc Hc k (.checker id g st) o n s := by
  have decl : ∀ d p, NoNone d → (Declared Xp.impl d n p ↔ Declared Xc.impl d n p) := by
    intro d p hd
    simp only [Declared, hp, hc]
    constructor
    · exact fun h => ⟨h.1, by simp⟩
    · refine fun h => ⟨h.1, fun _ he => hd n ?_⟩
      rw [h.1, he]
  have undecl : ∀ d, NoNone d → (Undeclared Xp.impl d n ↔ Undeclared Xc.impl d n) := by
    intro d hd
    simp only [Undeclared, decl d _ hd]
  have avail : Available Xp.impl s.avail n ↔ Available Xc.impl s.avail n := by
    simp only [Available, hp, hc]
    constructor
    · exact fun h => ⟨h.1, fun _ => hav n h.1⟩
    · exact fun h => ⟨h.1, by simp⟩
  have perm : ∀ p r, PermSpec Xc s o n p r → PermSpec Xp s o n p r := by
    intro p r h
    cases h with
    | isPublic h => exact .isPublic h
    | noInteraction h1 h2 => exact .noInteraction h1 (ht ▸ h2)
    | allowed h1 h2 h3 => exact .allowed h1 (ht ▸ h2) (hW ▸ h3)
    | refused h1 h2 h3 => exact .refused h1 (ht ▸ h2) (hW ▸ h3)
    | policyFails h1 h2 h3 => exact .policyFails h1 (ht ▸ h2) (hW ▸ h3)
    | policyHangs h1 h2 h3 => exact .policyHangs h1 (ht ▸ h2) (hW ▸ h3)
  by_cases hk : k = .setattr
  · subst hk
    rw [C02_write_check_table]
    have h := (C02_write_check_table Xc Hc id g st o n s _).mp rfl
    revert h
    generalize chkCheck Xc Hc .setattr (.checker id g st) o n s = r
    intro h
    cases h with
    | declared h1 h2 => exact .declared ((decl _ _ hst).mpr h1) (perm _ _ h2)
    | forbidden h1 => exact .forbidden ((undecl _ hst).mpr h1)
  · rw [C01_read_check_table Xp Hp k hk]
    have h := (C01_read_check_table Xc Hc k hk id g st o n s _).mp rfl
    revert h
    generalize chkCheck Xc Hc k (.checker id g st) o n s = r
    intro h
    have hu := undecl _ hg
    cases h with
    | declared h1 h2 => exact .declared ((decl _ _ hg).mpr h1) (perm _ _ h2)
    | byDefault h1 h2 => exact .byDefault (hu.mpr h1) (avail.mpr h2)
    | noIter h1 h2 h3 h4 => exact .noIter (hu.mpr h1) (fun h => h2 (avail.mp h)) h3 (by subst h3; rw [hH, h4])
    | hasIter h1 h2 h3 h4 => exact .hasIter (hu.mpr h1) (fun h => h2 (avail.mp h)) h3 (by subst h3; rw [hH, h4])
    | iterFails h1 h2 h3 h4 => exact .iterFails (hu.mpr h1) (fun h => h2 (avail.mp h)) h3 (by subst h3; rw [hH, h4])
    | iterHangs h1 h2 h3 h4 => exact .iterHangs (hu.mpr h1) (fun h => h2 (avail.mp h)) h3 (by subst h3; rw [hH, h4])
    | forbidden h1 h2 h3 => exact .forbidden (hu.mpr h1) (fun h => h2 (avail.mp h)) h3

/-- **C03** The `hasattr` hypothesis of `C03_checkers_agree` holds for an unproxied object as soon
as looking up `__iter__` fails at most with an AttributeError. -/
theorem C03_hasattr_agree (W : World A) (t f d : Nat) (o : Val) (ho : o.isProxy = false) (s : St A)
    (h : ∀ e s', W.apply (.getattr o "__iter__")
        { s with trace := s.trace ++ [.probed (.getattr o "__iter__")] } = (.err e, s') → e.isAttr = true) :
    hasattrX ⟨W, .py, t, f, d⟩ o "__iter__" s = hasattrX ⟨W, .c, t, f, d⟩ o "__iter__" s := by
  have e : ∀ impl, hasattrX ⟨W, impl, t, f, d⟩ o "__iter__"
      = hasattrOf ⟨W, impl, t, f, d⟩ (probe ⟨W, impl, t, f, d⟩ (.getattr o "__iter__")) := by
    intro impl
    unfold hasattrX
    cases d <;> cases o <;> simp_all [hasattrD, Val.isProxy]
  rw [e, e]
  unfold hasattrOf probe
  simp only
  rcases hr : W.apply (.getattr o "__iter__")
        { s with trace := s.trace ++ [.probed (.getattr o "__iter__")] } with ⟨r, s'⟩
  cases r with
  | ok _ => rfl
  | err e => simp [h e s' hr]
  | diverge => rfl

/-- The hypotheses are met by an ordinary checker and object. -/
example : NoNone ((Ex.s1 none).dicts 31) ∧ (∀ m ∈ (Ex.s1 none).avail, ∃ rest, m = "__" ++ rest)
    ∧ hasattrX (Ex.X .py) (.obj 2) "__iter__" (Ex.s1 none) = hasattrX (Ex.X .c) (.obj 2) "__iter__" (Ex.s1 none) := by
  refine ⟨?_, ?_, ?_⟩
  · intro n
    show PyDict.get? [("w", Ex.view)] n ≠ _
    simp only [PyDict.get?]
    split <;> simp [Ex.view]
  · intro m hm
    have : isDunder m = true := by
      have : ∀ m ∈ (Ex.s1 none).avail, isDunder m = true := by decide
      exact this m hm
    exact (isDunder_iff m).mp this
  · apply C03_hasattr_agree _ _ _ _ _ rfl
    intro e s' h
    simp [Ex.W] at h

/-- **C03** Each proviso is necessary: a stored `None` (permission asked in C, forbidden in
Python), a default name without underscores (granted in Python, forbidden in C), and an
`__iter__` probe failing with another exception (error in Python, granted in C) separate the two. -/
theorem C03_provisos_necessary :
    -- stored None
    (∃ (W : World Unit) (s : St Unit),
      (chkCheck ⟨W, .py, 0, 0, 0⟩ (hasattrX ⟨W, .py, 0, 0, 0⟩) .check Ex.c1 (.obj 1) "n" s).1
          = .err (.forbidden "n" (.obj 1))
      ∧ (chkCheck ⟨W, .c, 0, 0, 0⟩ (hasattrX ⟨W, .c, 0, 0, 0⟩) .check Ex.c1 (.obj 1) "n" s).1 = .ok ())
    -- default list
    ∧ (∃ (W : World Unit) (s : St Unit),
      (chkCheck ⟨W, .py, 0, 0, 0⟩ (hasattrX ⟨W, .py, 0, 0, 0⟩) .check Ex.c1 (.obj 1) "free" s).1 = .ok ()
      ∧ (chkCheck ⟨W, .c, 0, 0, 0⟩ (hasattrX ⟨W, .c, 0, 0, 0⟩) .check Ex.c1 (.obj 1) "free" s).1
          = .err (.forbidden "free" (.obj 1)))
    -- probe failing differently
    ∧ (∃ (W : World Unit) (s : St Unit),
      (chkCheck ⟨W, .py, 0, 0, 0⟩ (hasattrX ⟨W, .py, 0, 0, 0⟩) .check Ex.c1 (.obj 1) "__iter__" s).1
          = .err (.other 1)
      ∧ (chkCheck ⟨W, .c, 0, 0, 0⟩ (hasattrX ⟨W, .c, 0, 0, 0⟩) .check Ex.c1 (.obj 1) "__iter__" s).1 = .ok ()) := by
  refine ⟨⟨Ex.W, { Ex.s1 (some (.ix 0)) with ixs := fun _ => ⟨true, []⟩ }, ?_, ?_⟩,
    ⟨Ex.W, { Ex.s1 none with avail := ["free"] }, ?_, ?_⟩,
    ⟨{ Ex.W with apply := fun _ s => (.err (.other 1), s) }, Ex.s1 none, ?_, ?_⟩⟩ <;> decide

end ZS.Props
