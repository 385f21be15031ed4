import Verif.Props.Checks
import Verif.Props.Select
import Verif.Spec.Defaults
import Verif.Examples.World

/-!
# C48, C49, C53, C54: CheckerPublic, the default registry, modules, monotonicity
-/

namespace ZS.Props
open Spec
variable {A : Type}

/-! ## Dictionaries declaring everything public -/

/-- The dictionary declaring the given names public. -/
def publicDict (names : List Name) : PyDict Name Val := names.map fun n => (n, publicV)

theorem publicDict_get (names : List Name) (n : Name) :
    (publicDict names).get? n = if n ∈ names then some publicV else none := by
  induction names with
  | nil => rfl
  | cons m r ih =>
    simp only [publicDict, List.map_cons, PyDict.get?] at ih ⊢
    rw [ih]
    by_cases h : m = n
    · simp [h]
    · simp [h, Ne.symm h]

theorem publicDict_declared (impl : Impl) (names : List Name) (n : Name) :
    (n ∈ names → Declared impl (publicDict names) n publicV)
    ∧ (n ∉ names → Undeclared impl (publicDict names) n) := by
  constructor
  · intro h; exact ⟨by rw [publicDict_get, if_pos h], fun _ => by decide⟩
  · intro h p hp
    have := hp.1
    rw [publicDict_get, if_neg h] at this
    cases this

/-- What a checker with public names only decides. -/
theorem public_checker (X : Ctx A) (H : Val → Name → M A Bool) (k : CheckKind) (hk : k ≠ .setattr) (id g st : Nat)
    (names : List Name) (s : St A) (hg : s.dicts g = publicDict names) (o : Val) (n : Name) :
    (n ∈ names ∨ Available X.impl s.avail n → chkCheck X H k (.checker id g st) o n s = (.ok (), s))
    ∧ (n ∉ names → ¬ Available X.impl s.avail n → n ≠ "__iter__" →
        chkCheck X H k (.checker id g st) o n s = (.err (.forbidden n o), s)) := by
  have key := C01_read_check_table X H k hk id g st o n s
  have hd := publicDict_declared X.impl names n
  rw [← hg] at hd
  constructor
  · intro h
    by_cases hn : n ∈ names
    · exact (key _).mpr (.declared (hd.1 hn) (.isPublic rfl))
    · exact (key _).mpr (.byDefault (hd.2 hn) (h.resolve_left hn))
  · intro h1 h2 h3
    exact (key _).mpr (.forbidden (hd.2 h1) h2 h3)

/-- An empty write dictionary forbids everything. -/
theorem no_writes (X : Ctx A) (H : Val → Name → M A Bool) (id g st : Nat) (s : St A) (h : s.dicts st = []) (o : Val) (n : Name) :
    chkCheck X H .setattr (.checker id g st) o n s = (.err (.forbidden n o), s) :=
  (C02_write_check_table X H id g st o n s _).mpr
    (.forbidden (by rw [h]; intro p hp; exact absurd hp.1 (by simp)))

theorem always_available (impl : Impl) (n : Name) : Available impl always n ↔ n ∈ always := by
  constructor
  · exact fun h => h.1
  · intro h
    refine ⟨h, fun _ => (isDunder_iff n).mp ?_⟩
    have : ∀ m ∈ always, isDunder m = true := by decide
    exact this n h

/-! ## C48 CheckerPublic -/

/-- **C48** `CheckerPublic` is unchanged by `ProxyFactory` and by `checker.proxy`, in every state. -/
theorem C48_identity (X : Ctx A) (c : Val) (hc : IsChecker c) (s : St A) :
    proxyFactory X publicV .none s = (.ok publicV, s) ∧ chkProxy X c publicV s = (.ok publicV, s) :=
  ⟨(C09_factory_spec X publicV s _).mpr (.already ⟨_, _, _, rfl⟩),
   (C06_proxy_spec X c publicV hc s _).mpr (.already ⟨_, _, _, rfl⟩)⟩

/-- **C48** Whatever a security proxy protects, an attribute, item, element or result that is
`CheckerPublic` comes out of it as `CheckerPublic`. -/
theorem C48_read_through (X : Ctx A) (k : CheckKind) (w c : Val) (hc : IsChecker c) (n : Name) (r : RawOp)
    (s s1 s2 : St A) (hchk : guard X k c w n s = (.ok (), s1)) (hraw : perform X r s1 = (.ok publicV, s2)) :
    check1C X k w c n r s = (.ok publicV, s2) := by
  simp only [check1C, run_bind, hchk, hraw, (C48_identity X c hc s2).2]

/-- Nobody has changed the declarations of `CheckerPublic` or re-pointed it. -/
def PublicIntact (E : Ext) (a : A) (s : St A) : Prop :=
  s.dicts 0 = (initial E a).dicts 0 ∧ s.dicts 1 = (initial E a).dicts 1 ∧ s.ovW 0 = (initial E a).ovW 0
    ∧ s.ovC 0 = (initial E a).ovC 0

/-- **C48** Of its own attributes only `__reduce__` and `__module__` are readable besides what is
readable on everything. -/
theorem C48_own_reads (X : Ctx A) (H : Val → Name → M A Bool) (E : Ext) (a : A) (s : St A) (hp : PublicIntact E a s) (o : Val) (n : Name) :
    (n = "__reduce__" ∨ n = "__module__" ∨ Available X.impl s.avail n →
        chkCheck X H .getattr (.checker 0 0 1) o n s = (.ok (), s))
    ∧ (n ≠ "__reduce__" → n ≠ "__module__" → ¬ Available X.impl s.avail n → n ≠ "__iter__" →
        chkCheck X H .getattr (.checker 0 0 1) o n s = (.err (.forbidden n o), s)) := by
  have h := public_checker X H .getattr (by decide) 0 0 1 ["__reduce__", "__module__"] s (hp.1.trans rfl) o n
  constructor
  · rintro (h1 | h1 | h1)
    · exact h.1 (.inl (by simp [h1]))
    · exact h.1 (.inl (by simp [h1]))
    · exact h.1 (.inr h1)
  · intro h1 h2
    exact h.2 (by simp [h1, h2])

/-- **C48** It cannot be written to: setting or deleting an attribute is forbidden and changes
nothing.  (In pure Python the two slots of every proxy are excepted, see `C15`.) -/
theorem C48_no_writes (X : Ctx A) (E : Ext) (a : A) (s : St A) (hp : PublicIntact E a s) (n : Name)
    (hn : X.impl = .py → n ≠ "_wrapped" ∧ n ≠ "_checker") (v : Val) :
    pop X publicV (.setattr n v) s = (.err (.forbidden n (.obj 0)), s)
    ∧ pop X publicV (.delattr n) s = (.err (.forbidden n (.obj 0)), s) := by
  have hw := no_writes X (hasattrX X) 0 0 1 s (hp.2.1.trans rfl) (.obj 0) n
  cases himpl : X.impl with
  | c =>
    have e1 : ∀ op, pop X publicV op = popC X 0 (.obj 0) (.checker 0 0 1) op := by
      intro op; unfold pop publicV; rw [himpl]
    rw [e1, e1]
    simp [popC, guard, run_bind, hw]
  | py =>
    have e1 : ∀ op, pop X publicV op = popPy X 0 (.obj 0) (.checker 0 0 1) op := by
      intro op; unfold pop publicV; rw [himpl]
    obtain ⟨h1, h2⟩ := hn himpl
    rw [e1, e1]
    simp [popPy, setattrPy, delattrPy, guard, run_bind, h1, h2, proxyWrapped, proxyChecker, himpl, hp.2.2.1, hp.2.2.2, hw, initial]

/-- The state after import meets the hypotheses. -/
example (E : Ext) : PublicIntact E () Ex.s0 ∧ IsChecker Ex.c1 := ⟨⟨rfl, rfl, rfl, rfl⟩, .inl ⟨_, _, _, rfl⟩⟩

/-- Reading an attribute that is `CheckerPublic`. -/
example : guard (Ex.X .c) .getattr Ex.c1 (.obj 1) "a" (Ex.s1 none) = (.ok (), Ex.s1 none) := rfl

/-! ## C49 The default registry -/

/-- The rows of the default table. -/
theorem default_rows (E : Ext) (a : A) : ∀ row ∈ readable, ∃ k,
    (initial E a).reg.get? (.ty row.1) = some (.checker k (2 * k) (2 * k + 1))
    ∧ (initial E a).dicts (2 * k) = publicDict row.2 ∧ (initial E a).dicts (2 * k + 1) = []
    ∧ "__iter__" ∈ row.2 := by
  intro row hrow
  simp only [readable, List.mem_cons, List.not_mem_nil, or_false] at hrow
  rcases hrow with rfl | rfl | rfl | rfl | rfl | rfl | rfl | rfl | rfl | rfl
  · exact ⟨7, rfl, rfl, rfl, by decide⟩
  · exact ⟨8, rfl, rfl, rfl, by decide⟩
  · exact ⟨10, rfl, rfl, rfl, by decide⟩
  · exact ⟨6, rfl, rfl, rfl, by decide⟩
  · exact ⟨6, rfl, rfl, rfl, by decide⟩
  all_goals exact ⟨5, rfl, rfl, rfl, by decide⟩

/-- Nobody has touched a checker's dictionaries or the always-available names since import. -/
def Untouched (E : Ext) (a : A) (g st : Nat) (s : St A) : Prop :=
  s.dicts g = (initial E a).dicts g ∧ s.dicts st = (initial E a).dicts st ∧ s.avail = (initial E a).avail

/-- **C49** The checker registered for a built-in container or iterator type grants exactly the
names listed for the type and the always-available names, forbids every other name and every
write — in every state with these declarations, whatever the interaction, the policy, the object
and the implementation. -/
theorem C49_reads (E : Ext) (a : A) (t : String) (names : List Name) (hrow : (t, names) ∈ readable) :
    ∃ id g st, (initial E a).reg.get? (.ty t) = some (.checker id g st) ∧
      ∀ (X : Ctx A) (H : Val → Name → M A Bool) (k : CheckKind) (s : St A), Untouched E a g st s → ∀ (o : Val) (n : Name),
        (k ≠ .setattr → n ∈ names ∨ n ∈ always → chkCheck X H k (.checker id g st) o n s = (.ok (), s))
        ∧ (k ≠ .setattr → n ∉ names → n ∉ always →
            chkCheck X H k (.checker id g st) o n s = (.err (.forbidden n o), s))
        ∧ chkCheck X H .setattr (.checker id g st) o n s = (.err (.forbidden n o), s) := by
  obtain ⟨k0, h1, h2, h3, h4⟩ := default_rows E a _ hrow
  refine ⟨k0, 2 * k0, 2 * k0 + 1, h1, fun X H k s hs o n => ?_⟩
  obtain ⟨hg, hst, hav⟩ := hs
  have hav' : Available X.impl s.avail n ↔ n ∈ always := by rw [hav]; exact always_available _ _
  refine ⟨fun hk hn => ?_, fun hk hn1 hn2 => ?_, no_writes X H _ _ _ s (hst.trans h3) o n⟩
  · exact (public_checker X H k hk _ _ _ names s (hg.trans h2) o n).1 (by rw [hav']; exact hn)
  · exact (public_checker X H k hk _ _ _ names s (hg.trans h2) o n).2 hn1 (by rw [hav']; exact hn2)
      (fun h => hn1 (h ▸ h4))

/-- **C49** No mutating method is among them. -/
theorem C49_mutators (E : Ext) (a : A) (t : String) (ms : List Name) (hrow : (t, ms) ∈ mutators) (m : Name) (hm : m ∈ ms) :
    ∃ id g st, (initial E a).reg.get? (.ty t) = some (.checker id g st) ∧
      ∀ (X : Ctx A) (H : Val → Name → M A Bool) (k : CheckKind) (s : St A), Untouched E a g st s → ∀ (o : Val),
        chkCheck X H k (.checker id g st) o m s = (.err (.forbidden m o), s) := by
  have hno : ∀ row ∈ mutators, ∃ row' ∈ readable, row'.1 = row.1 ∧ ∀ m ∈ row.2, m ∉ row'.2 ∧ m ∉ always := by decide
  obtain ⟨⟨t', names⟩, h1, h2, h3⟩ := hno _ hrow
  simp only at h2
  subst h2
  obtain ⟨id, g, st, h4, h5⟩ := C49_reads E a t' names h1
  refine ⟨id, g, st, h4, fun X H k s hs o => ?_⟩
  obtain ⟨-, h6, h7⟩ := h5 X H k s hs o m
  by_cases hk : k = .setattr
  · subst hk; exact h7
  · exact h6 hk (h3 m hm).1 (h3 m hm).2

/-- **C49** Types that need no protection are registered as such, and a value of such a type that
brings no checker of its own is handed out as it is. -/
theorem C49_unprotected (E : Ext) (a : A) (X : Ctx A) (v : Val) (hv : ¬ IsProxy v) (ht : typeOf X.W v ∈ unprotected)
    (s s1 : St A) (n : Name) (hown : getSC X v s = (.err (.attributeError n), s1))
    (hreg : s1.reg = (initial E a).reg) (c : Val) (hc : IsChecker c) :
    proxyFactory X v .none s = (.ok v, s1) ∧ chkProxy X c v s = (.ok v, s1) := by
  have hreg' : ∀ t ∈ unprotected, (initial E a).reg.get? (.ty t) = some .noProxy := by
    intro t ht
    have : ∀ t ∈ unprotected, (PyDict.update (PyDict.update [] defaultCheckers) basicTypes).get? (.ty t) = some .noProxy := by
      decide
    exact this t ht
  have hsel : selectChecker X v s1 = (.ok .none, s1) := (C07_direct X v s1).2.2.1 (by rw [hreg]; exact hreg' _ ht)
  constructor
  · exact (C09_factory_spec X v s _).mpr (.absent hv hown (fun _ => rfl) (.bare hsel))
  · exact (C06_proxy_spec X c v hc s _).mpr (.absent hv hown (fun _ => rfl) (.bare hsel))

/-- **C49** In particular `None`, booleans, integers and strings are never wrapped. -/
theorem C49_constants (E : Ext) (a : A) (X : Ctx A) (v : Val)
    (hv : v = .none ∨ (∃ b, v = .bool b) ∨ (∃ n, v = .int n) ∨ (∃ p t, v = .str p t))
    (s : St A) (hreg : s.reg = (initial E a).reg) (c : Val) (hc : IsChecker c) :
    proxyFactory X v .none s = (.ok v, s) ∧ chkProxy X c v s = (.ok v, s) := by
  rcases hv with rfl | ⟨b, rfl⟩ | ⟨n, rfl⟩ | ⟨p, t, rfl⟩ <;>
  exact C49_unprotected E a X _ (by rintro ⟨_, _, _, h⟩; cases h) (by simp [typeOf, unprotected]) s s _ rfl hreg c hc

/-- The hypotheses hold after import for a list and for a datetime object. -/
example : Untouched Ex.ext () 16 17 Ex.s0 ∧ ("list", listNames) ∈ readable ∧ "append" ∉ listNames
    ∧ typeOf { Ex.W with objType := fun _ => "datetime" } (.obj 1) ∈ unprotected
    ∧ (getSC (Ex.X .c) (.obj 1) Ex.s0).1 = .err (.attributeError "__Security_checker__") := by
  refine ⟨⟨rfl, rfl, rfl⟩, by decide, by decide, by decide, rfl⟩

/-! ## C53 Modules -/

/-- **C53** A module is guarded by the checker registered for that very module, and without one by
the checker under which only its name is readable. -/
theorem C53_module_checker (X : Ctx A) (m : String) (s : St A) (hf : 0 < X.fuel)
    (hmod : s.reg.get? (.ty "module") = some (.fn 0)) :
    (∀ c, s.reg.get? (.mod m) = some c → IsChecker c → selectChecker X (.module m) s = (.ok c, s))
    ∧ (s.reg.get? (.mod m) = none → selectChecker X (.module m) s = (.ok (.checker 2 4 5), s)) := by
  have he : regEntry X.W s (.module m) = .fn 0 := by
    simp only [regEntry, typeOf, hmod, Option.getD]
  have hsel : selectChecker X (.module m) s = selectLoop X (.module m) X.fuel (.fn 0) s := by
    rw [selectChecker_eq, he]
    rw [if_neg (by decide), if_neg (by rintro ⟨_, h, _⟩; exact absurd h (by decide))]
  obtain ⟨k, hk⟩ : ∃ k, X.fuel = k + 1 := ⟨X.fuel - 1, by omega⟩
  have step : ∀ c, (s.reg.get? (.mod m)).getD namedChecker = c → IsChecker c →
      selectChecker X (.module m) s = (.ok c, s) := by
    intro c h1 h2
    have hcall : callFactory X (.fn 0) (.module m) s = (.ok c, s) := by rw [← h1]; rfl
    have hc := (isChecker_iff c).mpr h2
    have hne : ¬ (c = .noProxy ∨ c = .none) := by rintro (h | h) <;> (subst h; exact absurd hc (by decide))
    rw [hsel, hk, selectLoop_succ, show (Val.fn 0).isChecker = false from rfl]
    simp only [Bool.false_eq_true, if_false, run_bind, hcall]
    rw [if_neg hne]
    exact selectLoop_checker X _ k c s hc
  exact ⟨fun c h1 h2 => step c (by rw [h1]; rfl) h2, fun h => step _ (by rw [h]; rfl) (.inl ⟨_, _, _, rfl⟩)⟩

/-- **C53** Under that second checker exactly `__name__` and the always-available names are
readable and nothing is writable. -/
theorem C53_only_name (E : Ext) (a : A) (X : Ctx A) (H : Val → Name → M A Bool) (s : St A)
    (hs : Untouched E a 4 5 s) (m : String) (n : Name) (hn : n ≠ "__iter__") :
    (n = "__name__" ∨ n ∈ always → chkCheck X H .getattr (.checker 2 4 5) (.module m) n s = (.ok (), s))
    ∧ (n ≠ "__name__" → n ∉ always →
        chkCheck X H .getattr (.checker 2 4 5) (.module m) n s = (.err (.forbidden n (.module m)), s))
    ∧ chkCheck X H .setattr (.checker 2 4 5) (.module m) n s = (.err (.forbidden n (.module m)), s) := by
  have h := public_checker X H .getattr (by decide) 2 4 5 ["__name__"] s hs.1 (.module m) n
  rw [hs.2.2, show (initial E a).avail = always from rfl, always_available] at h
  refine ⟨fun h1 => h.1 (by simpa using h1), fun h1 h2 => h.2 (by simpa using h1) h2 hn,
    no_writes X H _ _ _ s hs.2.1 _ n⟩

/-- **C53** `ProxyFactory` puts a module without a `__Security_checker__` of its own under the
module's checker. -/
theorem C53_proxied (X : Ctx A) (m : String) (s s1 : St A) (n : Name) (hf : 0 < X.fuel)
    (hown : getSC X (.module m) s = (.err (.attributeError n), s1))
    (hmod : s1.reg.get? (.ty "module") = some (.fn 0)) (c : Val)
    (hc : s1.reg.get? (.mod m) = some c ∧ IsChecker c ∨ s1.reg.get? (.mod m) = none ∧ c = .checker 2 4 5) :
    proxyFactory X (.module m) .none s = (.ok (.proxy s1.nextId (.module m) c), { s1 with nextId := s1.nextId + 1 }) := by
  have h := C53_module_checker X m s1 hf hmod
  have hsel : selectChecker X (.module m) s1 = (.ok c, s1) := by
    rcases hc with ⟨h1, h2⟩ | ⟨h1, rfl⟩
    · exact h.1 c h1 h2
    · exact h.2 h1
  have hne : c ≠ .none := by
    rintro rfl
    rcases hc with ⟨_, h2⟩ | ⟨_, h2⟩
    · exact absurd ((isChecker_iff _).mpr h2) (by decide)
    · cases h2
  exact (C09_factory_spec X _ s _).mpr (.absent (by rintro ⟨_, _, _, h⟩; cases h) hown (fun _ => rfl)
    (.wrap hsel hne rfl))

/-- **C53** Defining (or removing) a checker for one module does not change which checker another
module gets, nor the one any class gets. -/
theorem C53_other_modules (m m' : String) (hm : m ≠ m') (c : Val) (s : St A) :
    ((defineChecker (.module m) c s).2.reg.get? (.mod m') = s.reg.get? (.mod m')
      ∧ ∀ t, (defineChecker (.module m) c s).2.reg.get? (.ty t) = s.reg.get? (.ty t))
    ∧ ((undefineChecker (.mod m) s).2.reg.get? (.mod m') = s.reg.get? (.mod m')
      ∧ ∀ t, (undefineChecker (.mod m) s).2.reg.get? (.ty t) = s.reg.get? (.ty t)) := by
  have hne : Key.mod m ≠ Key.mod m' := by intro h; cases h; exact hm rfl
  have hnt : ∀ t, Key.mod m ≠ Key.ty t := by intro t h; cases h
  have e1 : (defineChecker (.module m) c s).2.reg = if s.reg.mem (.mod m) then s.reg else s.reg.set (.mod m) c := by
    simp only [defineChecker, definable, run_bind, run_get, run_ite]
    split <;> rfl
  have e2 : (undefineChecker (.mod m) s).2.reg = if s.reg.mem (.mod m) then s.reg.del (.mod m) else s.reg := by
    simp only [undefineChecker, run_bind, run_get, run_ite]
    split <;> rfl
  rw [e1, e2]
  refine ⟨⟨?_, fun t => ?_⟩, ⟨?_, fun t => ?_⟩⟩ <;> split <;> simp [PyDict.get?_set, PyDict.get?_del, hne]

/-- After import modules "a" and "b" are guarded by name only; after defining a checker for "a", "a"
is guarded by that checker. -/
example : Ex.s0.reg.get? (.ty "module") = some (.fn 0) ∧ Ex.s0.reg.get? (.mod "a") = none
    ∧ Untouched Ex.ext () 4 5 Ex.s0
    ∧ (selectChecker (Ex.X .c) (.module "a") (defineChecker (.module "a") Ex.c1 Ex.s0).2).1 = .ok Ex.c1
    ∧ (selectChecker (Ex.X .c) (.module "b") (defineChecker (.module "a") Ex.c1 Ex.s0).2).1 = .ok (.checker 2 4 5) :=
  ⟨rfl, rfl, ⟨rfl, rfl, rfl⟩, by decide, by decide⟩

/-! ## C54 Monotonicity -/

/-- The state with one more public declaration in dictionary `g`. -/
def withPublic (g : Nat) (n : Name) (s : St A) : St A :=
  { s with
    dicts := fun k => if k = g then (s.dicts g).set n publicV else s.dicts k }

/-- **C54** Adding a public declaration for a so far undeclared name never turns a granted check
(of any name, on any object, read or write, by a checker using that dictionary or not) into a
refused one.  Foreign policies and `hasattr` on the object must not themselves depend on the
permission dictionaries. -/
theorem C54_monotone (X : Ctx A) (H : Val → Name → M A Bool) (k : CheckKind) (id g st g' : Nat) (o : Val) (n m : Name)
    (s : St A) (hn : Undeclared X.impl (s.dicts g') n)
    (hW : ∀ ix p s1, (X.W.apply (.method ix "checkPermission" [p, o]) (withPublic g' n s1)).1
      = (X.W.apply (.method ix "checkPermission" [p, o]) s1).1)
    (hH : (H o m (withPublic g' n s)).1 = (H o m s).1)
    (hok : (chkCheck X H k (.checker id g st) o m s).1 = .ok ()) :
    (chkCheck X H k (.checker id g st) o m (withPublic g' n s)).1 = .ok () := by
  have hix : ∀ p ix s', IxAnswer X.W s p o ix (.ok true) s' → ∃ s'', IxAnswer X.W (withPublic g' n s) p o ix (.ok true) s'' := by
    intro p ix s' h
    generalize hr : Res.ok true = r at h
    cases h with
    | yes h => exact ⟨_, .yes h⟩
    | no h => cases hr
    | foreignErr _ _ => cases hr
    | foreignDiv _ _ => cases hr
    | foreign h1 h2 h3 =>
      cases hr
      rename_i v s1
      have h4 := hW ix p { s with trace := s.trace ++ [.probed (.method ix "checkPermission" [p, o])] }
      rw [h2] at h4
      rcases h5 : X.W.apply (.method ix "checkPermission" [p, o])
        (withPublic g' n { s with trace := s.trace ++ [.probed (.method ix "checkPermission" [p, o])] }) with ⟨r5, s5⟩
      rw [h5] at h4
      simp only at h4
      subst h4
      exact ⟨_, .foreign h1 h5 h3⟩
  have decl : ∀ d p, Declared X.impl (s.dicts d) m p → Declared X.impl ((withPublic g' n s).dicts d) m p := by
    intro d p h
    simp only [withPublic]
    split
    · next hd =>
      subst hd
      have : n ≠ m := by rintro rfl; exact hn p h
      exact ⟨by rw [PyDict.get?_set_ne _ _ this]; exact h.1, h.2⟩
    · exact h
  have undecl : ∀ d, Undeclared X.impl (s.dicts d) m →
      Undeclared X.impl ((withPublic g' n s).dicts d) m ∨ Declared X.impl ((withPublic g' n s).dicts d) m publicV := by
    intro d h
    by_cases hd : d = g'
    · subst hd
      by_cases hm : n = m
      · right; subst hm; simp only [withPublic, if_true]
        exact ⟨PyDict.get?_set_self _ _ _, fun _ => by decide⟩
      · left; intro p hp
        simp only [withPublic, if_true] at hp
        exact h p ⟨by rw [← PyDict.get?_set_ne (s.dicts d) publicV hm]; exact hp.1, hp.2⟩
    · left; intro p hp; simp only [withPublic, hd, if_false] at hp; exact h p hp
  by_cases hk : k = .setattr
  · subst hk
    rw [C02_write_granted_iff] at hok ⊢
    rcases hok with h | ⟨p, ix, s', h1, h2, h3, h4⟩
    · exact .inl (decl _ _ h)
    · obtain ⟨s'', h5⟩ := hix p ix s' h4
      exact .inr ⟨p, ix, s'', decl _ _ h1, h2, h3, h5⟩
  · rw [C01_granted_iff X H k hk] at hok ⊢
    rcases hok with h | ⟨p, ix, s', h1, h2, h3, h4⟩ | ⟨h1, h2⟩ | ⟨h1, h2, h3, h4⟩
    · exact .inl (decl _ _ h)
    · obtain ⟨s'', h5⟩ := hix p ix s' h4
      exact .inr (.inl ⟨p, ix, s'', decl _ _ h1, h2, h3, h5⟩)
    · rcases undecl g h1 with h | h
      · exact .inr (.inr (.inl ⟨h, h2⟩))
      · exact .inl h
    · rcases undecl g h1 with h | h
      · exact .inr (.inr (.inr ⟨h, h2, h3, by rw [hH]; exact h4⟩))
      · exact .inl h

/-- Code that neither depends on dictionary `g` having a public declaration for `n` nor changes that dictionary. -/
def Blind {α : Type} (g : Nat) (n : Name) (f : M A α) : Prop :=
  ∀ s, f (withPublic g n s) = ((f s).1, withPublic g n (f s).2) ∧ (f s).2.dicts g = s.dicts g

theorem Blind.probe {X : Ctx A} {g : Nat} {n : Name} (hW : ∀ r, Blind g n (X.W.apply r)) (r : RawOp) : Blind g n (ZS.probe X r) := by
  intro s
  have h := hW r { s with trace := s.trace ++ [.probed r] }
  refine ⟨?_, h.2⟩
  have h1 : ZS.probe X r (withPublic g n s)
      = ((X.W.apply r (withPublic g n { s with trace := s.trace ++ [.probed r] })).1,
        { (X.W.apply r (withPublic g n { s with trace := s.trace ++ [.probed r] })).2 with trace := s.trace ++ [.probed r] }) := rfl
  rw [h1, h.1]
  rfl

theorem Blind.ask {X : Ctx A} {g : Nat} {n : Name} (hW : ∀ r, Blind g n (X.W.apply r)) (p o : Val) :
    Blind g n (askInteraction X p o) := by
  intro s
  have e : ∀ t : St A, (withPublic g n t).threads = t.threads := fun _ => rfl
  simp only [askInteraction, run_bind, run_get, e]
  cases hi : (s.threads X.tid).interaction with
  | none => exact ⟨rfl, rfl⟩
  | some ix =>
    have key : Blind g n (ixCheckPermission X ix p o) := by
      unfold ixCheckPermission
      split
      · intro t
        simp only [run_bind, run_get]
        have e1 : (withPublic g n t).ixs = t.ixs := rfl
        have e2 : ∀ i, paranoidCheck (withPublic g n t) i p = paranoidCheck t i p := fun _ => rfl
        rw [e1, e2]
        simp only [run_ite]
        split <;> exact ⟨rfl, rfl⟩
      · exact Blind.probe hW _
    have h := key s
    simp only [run_bind]
    rw [h.1]
    rcases hr : ixCheckPermission X ix p o s with ⟨r, s1⟩
    rw [hr] at h
    cases r with
    | ok v => exact ⟨rfl, h.2⟩
    | err e => exact ⟨rfl, h.2⟩
    | diverge => exact ⟨rfl, h.2⟩

/-- With the new declaration: granted, or the same outcome as without. -/
def GrantedOrSame (g : Nat) (n : Name) (f : M A Unit) (s : St A) : Prop :=
  ((f (withPublic g n s)).1 = .ok () ∨ f (withPublic g n s) = ((f s).1, withPublic g n (f s).2))
  ∧ (f s).2.dicts g = s.dicts g

/-- **C54** For every checker (ordinary, combined to any depth, or foreign) and every check of any name: with one more
public declaration, for a name so far undeclared in that dictionary, the check is granted or ends exactly as it did
without, with the same effects.  In particular what was granted is granted.  Application code and policies must not
themselves depend on the declaration. -/
theorem C54_any_checker (X : Ctx A) (H : Val → Name → M A Bool) (g' : Nat) (o : Val) (n m : Name)
    (hW : ∀ r, Blind g' n (X.W.apply r)) (hH : Blind g' n (H o m)) (c : Val) (k : CheckKind)
    (s : St A) (hn : Undeclared X.impl (s.dicts g') n) :
    GrantedOrSame g' n (chkCheck X H k c o m) s := by
  have hreq : ∀ (p : Val) s, GrantedOrSame g' n (requirePerm X o m p) s := by
    intro p s
    unfold requirePerm
    by_cases hp : p = publicV
    · simp only [hp, if_true]
      exact ⟨.inl rfl, rfl⟩
    · simp only [hp, if_false]
      have h := Blind.ask hW p o s
      simp only [GrantedOrSame, run_bind]
      rw [h.1]
      rcases hr : askInteraction X p o s with ⟨r, s1⟩
      rw [hr] at h
      cases r with
      | ok b => cases b <;> exact ⟨.inr rfl, h.2⟩
      | err e => exact ⟨.inr rfl, h.2⟩
      | diverge => exact ⟨.inr rfl, h.2⟩
  have decl : ∀ (s : St A) d p, Undeclared X.impl (s.dicts g') n → Declared X.impl (s.dicts d) m p →
      Declared X.impl ((withPublic g' n s).dicts d) m p := by
    intro s d p hn h
    simp only [withPublic]
    split
    · next hd =>
      subst hd
      have : n ≠ m := by rintro rfl; exact hn p h
      exact ⟨by rw [PyDict.get?_set_ne _ _ this]; exact h.1, h.2⟩
    · exact h
  have undecl : ∀ (s : St A) d, Undeclared X.impl (s.dicts d) m →
      Undeclared X.impl ((withPublic g' n s).dicts d) m ∨ Declared X.impl ((withPublic g' n s).dicts d) m publicV := by
    intro s d h
    by_cases hd : d = g'
    · subst hd
      by_cases hm : n = m
      · subst hm
        right
        refine ⟨?_, fun _ => by decide⟩
        simp only [withPublic, if_true]
        exact PyDict.get?_set_self _ _ _
      · left
        intro p hp
        simp only [withPublic, if_true] at hp
        exact h p ⟨by rw [← PyDict.get?_set_ne (s.dicts d) publicV hm]; exact hp.1, hp.2⟩
    · left; intro p hp; simp only [withPublic, hd, if_false] at hp; exact h p hp
  have hread : ∀ g s, Undeclared X.impl (s.dicts g') n → GrantedOrSame g' n (plainCheck X H g o m) s := by
    intro g s hn
    by_cases hd : ∃ p, Declared X.impl (s.dicts g) m p
    · obtain ⟨p, hd⟩ := hd
      have e1 : plainCheck X H g o m s = requirePerm X o m p s :=
        (plainCheck_spec X H g o m s _).mpr (.declared hd ((requirePerm_spec X o m p s _).mp rfl))
      have e2 : plainCheck X H g o m (withPublic g' n s) = requirePerm X o m p (withPublic g' n s) :=
        (plainCheck_spec X H g o m _ _).mpr (.declared (decl s g p hn hd) ((requirePerm_spec X o m p _ _).mp rfl))
      have h := hreq p s
      unfold GrantedOrSame at h ⊢
      rw [e1, e2]
      exact h
    · have hu : Undeclared X.impl (s.dicts g) m := fun p hp => hd ⟨p, hp⟩
      rcases undecl s g hu with hu' | hpub
      · by_cases ha : Available X.impl s.avail m
        · have e2 : plainCheck X H g o m (withPublic g' n s) = (.ok (), withPublic g' n s) :=
            (plainCheck_spec X H g o m _ _).mpr (.byDefault hu' ha)
          have e1 : plainCheck X H g o m s = (.ok (), s) := (plainCheck_spec X H g o m _ _).mpr (.byDefault hu ha)
          unfold GrantedOrSame
          rw [e1, e2]
          exact ⟨.inl rfl, rfl⟩
        · by_cases hi : m = "__iter__"
          · have h := hH s
            rcases hr : H o m s with ⟨r, s1⟩
            rw [hr] at h
            unfold GrantedOrSame
            cases r with
            | ok b =>
              cases b with
              | true =>
                rw [(plainCheck_spec X H g o m _ _).mpr (.hasIter hu' ha hi h.1), (plainCheck_spec X H g o m _ _).mpr (.hasIter hu ha hi hr)]
                exact ⟨.inr rfl, h.2⟩
              | false =>
                rw [(plainCheck_spec X H g o m _ _).mpr (.noIter hu' ha hi h.1), (plainCheck_spec X H g o m _ _).mpr (.noIter hu ha hi hr)]
                exact ⟨.inr rfl, h.2⟩
            | err e =>
              rw [(plainCheck_spec X H g o m _ _).mpr (.iterFails hu' ha hi h.1), (plainCheck_spec X H g o m _ _).mpr (.iterFails hu ha hi hr)]
              exact ⟨.inr rfl, h.2⟩
            | diverge =>
              rw [(plainCheck_spec X H g o m _ _).mpr (.iterHangs hu' ha hi h.1), (plainCheck_spec X H g o m _ _).mpr (.iterHangs hu ha hi hr)]
              exact ⟨.inr rfl, h.2⟩
          · unfold GrantedOrSame
            rw [(plainCheck_spec X H g o m _ _).mpr (.forbidden hu' ha hi), (plainCheck_spec X H g o m _ _).mpr (.forbidden hu ha hi)]
            exact ⟨.inr rfl, rfl⟩
      · refine ⟨.inl ?_, ?_⟩
        · rw [(plainCheck_spec X H g o m _ _).mpr (.declared hpub (.isPublic rfl))]
        · by_cases ha : Available X.impl s.avail m
          · rw [(plainCheck_spec X H g o m _ _).mpr (.byDefault hu ha)]
          · by_cases hi : m = "__iter__"
            · have h := (hH s).2
              rcases hr : H o m s with ⟨r, s1⟩
              rw [hr] at h
              cases r with
              | ok b =>
                cases b with
                | true => rw [(plainCheck_spec X H g o m _ _).mpr (.hasIter hu ha hi hr)]; exact h
                | false => rw [(plainCheck_spec X H g o m _ _).mpr (.noIter hu ha hi hr)]; exact h
              | err e => rw [(plainCheck_spec X H g o m _ _).mpr (.iterFails hu ha hi hr)]; exact h
              | diverge => rw [(plainCheck_spec X H g o m _ _).mpr (.iterHangs hu ha hi hr)]; exact h
            · rw [(plainCheck_spec X H g o m _ _).mpr (.forbidden hu ha hi)]
  have hwrite : ∀ st s, Undeclared X.impl (s.dicts g') n → GrantedOrSame g' n (plainSetattr X st o m) s := by
    intro st s hn
    by_cases hd : ∃ p, Declared X.impl (s.dicts st) m p
    · obtain ⟨p, hd⟩ := hd
      have e1 : plainSetattr X st o m s = requirePerm X o m p s :=
        (plainSetattr_spec X st o m s _).mpr (.declared hd ((requirePerm_spec X o m p s _).mp rfl))
      have e2 : plainSetattr X st o m (withPublic g' n s) = requirePerm X o m p (withPublic g' n s) :=
        (plainSetattr_spec X st o m _ _).mpr (.declared (decl s st p hn hd) ((requirePerm_spec X o m p _ _).mp rfl))
      have h := hreq p s
      unfold GrantedOrSame at h ⊢
      rw [e1, e2]
      exact h
    · have hu : Undeclared X.impl (s.dicts st) m := fun p hp => hd ⟨p, hp⟩
      unfold GrantedOrSame
      rw [(plainSetattr_spec X st o m s _).mpr (.forbidden hu)]
      rcases undecl s st hu with hu' | hpub
      · rw [(plainSetattr_spec X st o m _ _).mpr (.forbidden hu')]
        exact ⟨.inr rfl, rfl⟩
      · rw [(plainSetattr_spec X st o m _ _).mpr (.declared hpub (.isPublic rfl))]
        exact ⟨.inl rfl, rfl⟩
  have hcomb : ∀ (f g : M A Unit) s, Undeclared X.impl (s.dicts g') n → GrantedOrSame g' n f s →
      (∀ s, Undeclared X.impl (s.dicts g') n → GrantedOrSame g' n g s) → GrantedOrSame g' n (combine f g) s := by
    intro f g s hn hf hg
    obtain ⟨hf, hfd⟩ := hf
    have second : ∀ s1, (f s).2 = s1 → GrantedOrSame g' n g s1 := by
      rintro s1 rfl
      exact hg _ (by rw [hfd]; exact hn)
    rcases hfs : f s with ⟨r, s1⟩
    rw [hfs] at hf hfd second
    have hg1 := second s1 rfl
    have hd : (combine f g s).2.dicts g' = s.dicts g' := by
      simp only [combine, hfs]
      cases r with
      | ok u => exact hfd
      | diverge => exact hfd
      | err e =>
        simp only
        split
        · rw [hg1.2]; exact hfd
        · split
          · have h2 := hg1.2
            rw [run_tryCatch]
            rcases hr : g s1 with ⟨r2, s2⟩
            rw [hr] at h2
            cases r2 with
            | ok u => simp only; rw [h2]; exact hfd
            | diverge => simp only; rw [h2]; exact hfd
            | err e2 =>
              simp only
              split
              · rw [run_throw]; simp only; rw [h2]; exact hfd
              · simp only; rw [h2]; exact hfd
          · exact hfd
    refine ⟨?_, hd⟩
    rcases hf with hok | hsame
    · left
      rcases hw : f (withPublic g' n s) with ⟨r', s'⟩
      rw [hw] at hok
      simp only at hok
      subst hok
      simp only [combine, hw]
    · cases r with
      | ok u => right; simp only [combine, hfs, hsame]
      | diverge => right; simp only [combine, hfs, hsame]
      | err e =>
        simp only [combine, hfs, hsame]
        split
        · exact hg1.1
        · split
          · simp only [run_tryCatch]
            rcases hg1.1 with h | h
            · left
              rcases hw : g (withPublic g' n s1) with ⟨r', s'⟩
              rw [hw] at h
              simp only at h
              subst h
              rfl
            · right
              rw [h]
              rcases hr : g s1 with ⟨r2, s2⟩
              cases r2 with
              | ok u => rfl
              | diverge => rfl
              | err e2 => simp only; split <;> rfl
          · exact .inr rfl
  have hforeign : ∀ v (k : CheckKind) s, GrantedOrSame g' n
      (do let _ ← ZS.probe X (.method v k.methodName [o, .str 0 m]); pure ()) s := by
    intro v k s
    have h := Blind.probe hW (.method v k.methodName [o, .str 0 m]) s
    unfold GrantedOrSame
    simp only [run_bind]
    rw [h.1]
    rcases hr : ZS.probe X (.method v k.methodName [o, .str 0 m]) s with ⟨r, s1⟩
    rw [hr] at h
    cases r with
    | ok b => exact ⟨.inr rfl, h.2⟩
    | err e => exact ⟨.inr rfl, h.2⟩
    | diverge => exact ⟨.inr rfl, h.2⟩
  induction c generalizing k s with
  | checker id g st =>
    cases k with
    | setattr => exact hwrite st s hn
    | check => exact hread g s hn
    | getattr => exact hread g s hn
  | combined id g st c2 ih =>
    cases k with
    | setattr => exact hcomb _ _ s hn (hwrite st s hn) fun s hs => ih .setattr s hs
    | check => exact hcomb _ _ s hn (hread g s hn) fun s hs => ih .check s hs
    | getattr => exact hcomb _ _ s hn (hread g s hn) fun s hs => ih .check s hs
  | _ => exact hforeign _ k s

/-- **C54** With no declarations left only the always-available names (and the `__iter__` rule)
remain, whatever the interaction. -/
theorem C54_nothing_declared (X : Ctx A) (H : Val → Name → M A Bool) (id g st : Nat) (o : Val) (n : Name) (s : St A)
    (hg : s.dicts g = []) (hst : s.dicts st = []) (hn : n ≠ "__iter__") :
    ((chkCheck X H .getattr (.checker id g st) o n s).1 = .ok () ↔ Available X.impl s.avail n)
    ∧ chkCheck X H .setattr (.checker id g st) o n s = (.err (.forbidden n o), s) := by
  refine ⟨?_, no_writes X H id g st s hst o n⟩
  have h := public_checker X H .getattr (by decide) id g st [] s hg o n
  constructor
  · intro hok
    apply Classical.byContradiction
    intro hno
    rw [h.2 (by simp) hno hn] at hok
    cases hok
  · intro hav
    rw [h.1 (.inr hav)]

/-- **C54** As long as nobody changes the list of always-available names it is the documented one. -/
theorem C54_default_names (X : Ctx A) (H : Val → Name → M A Bool) (E : Ext) (a : A) (id g st : Nat) (o : Val) (n : Name) (s : St A)
    (hs : s.avail = (initial E a).avail) (hg : s.dicts g = []) (hst : s.dicts st = []) (hn : n ≠ "__iter__") :
    (chkCheck X H .getattr (.checker id g st) o n s).1 = .ok () ↔ n ∈ always := by
  rw [(C54_nothing_declared X H id g st o n s hg hst hn).1, hs]
  exact always_available _ _

/-- A public declaration for "zzz" leaves the granted name "b" granted. -/
example : Undeclared .c ((Ex.s1 (some (.obj 50))).dicts 30) "zzz"
    ∧ (chkCheck (Ex.X .c) (hasattrX (Ex.X .c)) .getattr Ex.c1 (.obj 1) "b" (Ex.s1 (some (.obj 50)))).1 = .ok ()
    ∧ (chkCheck (Ex.X .c) (hasattrX (Ex.X .c)) .getattr Ex.c1 (.obj 1) "zzz" (Ex.s1 (some (.obj 50)))).1
        = .err (.forbidden "zzz" (.obj 1)) := by
  refine ⟨?_, by decide, by decide⟩
  intro p hp
  have := hp.1
  rw [show ((Ex.s1 (some (.obj 50))).dicts 30).get? "zzz" = none by decide] at this
  cases this

/-- A combined checker, in a world that does not look at declarations: "c" stays refused, "zzz" becomes granted. -/
example : (∀ r, Blind 30 "zzz" ((Ex.X .c).W.apply r)) ∧ Blind 30 "zzz" (hasattrX (Ex.X .c) (.obj 1) "__iter__")
    ∧ (chkCheck (Ex.X .c) (hasattrX (Ex.X .c)) .getattr (.combined 61 30 31 (.checker 62 32 33)) (.obj 1) "c"
        (withPublic 30 "zzz" (Ex.s1 (some (.obj 50))))).1 = .err (.unauthorized (.obj 1) "c" Ex.edit)
    ∧ (chkCheck (Ex.X .c) (hasattrX (Ex.X .c)) .getattr (.combined 61 30 31 (.checker 62 32 33)) (.obj 1) "zzz"
        (withPublic 30 "zzz" (Ex.s1 (some (.obj 50))))).1 = .ok ()
    ∧ (chkCheck (Ex.X .c) (hasattrX (Ex.X .c)) .getattr (.combined 61 30 31 (.checker 62 32 33)) (.obj 1) "zzz"
        (Ex.s1 (some (.obj 50)))).1 = .err (.forbidden "zzz" (.obj 1)) := by
  have hW : ∀ r, Blind 30 "zzz" ((Ex.X .c).W.apply r) := by
    intro r s
    simp only [Ex.X, Ex.W]
    split <;> exact ⟨rfl, rfl⟩
  exact ⟨hW, fun s => ⟨rfl, rfl⟩, by decide, by decide, by decide⟩

end ZS.Props
