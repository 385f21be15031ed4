import Verif.Lemmas.PyModuleRun
import Verif.Props.SourceChecker2

/-!
# C82: the tables of checkers, from source

The statements of checker.py itself are run (checker.py:97-1089), as the package is imported, and what they leave in `_checkers`,
`_default_checkers`, `BasicTypes` and `_available_by_default` is what the model starts from (`initial`), whatever the environment is.

What a table holds for a type is compared by what it grants (`shown`): a checker is the names it lets be read and written, each with whether it is
public.
-/

namespace ZS.Props
open ZS ZS.PyC

/-- What an entry of a table grants. -/
inductive Shown where
  /-- the object is not proxied -/
  | bare
  /-- the factory for modules -/
  | modules
  /-- a checker: the names that may be read and written, and whether they are public -/
  | names (read write : List (Name × Bool))
  | other
  deriving DecidableEq, Repr

/-- What an entry grants, `public` being `CheckerPublic`. -/
def shown (dicts : Nat → PyDict Name Val) (CheckerPublic : Val) : Val → Shown
  | .noProxy => .bare
  | .checker _ g st =>
    .names ((dicts g).map fun e => (e.1, decide (e.2 = CheckerPublic))) ((dicts st).map fun e => (e.1, decide (e.2 = CheckerPublic)))
  | v => if v = moduleFactory then .modules else .other

/-- The state after the import. -/
def imported (c : Setup) : St Vars := (importChecker c).2

/-- `CheckerPublic` after the import. -/
def importedPublic (c : Setup) : Val :=
  match (imported c).app "CheckerPublic" with
  | some (.v p) => p
  | _ => .none

/-- What a table grants after the import. -/
def grants (c : Setup) (n t : Name) : Option Shown :=
  ((table (imported c) n).get? t).map (shown (imported c).dicts (importedPublic c))

/-- What a table of the model grants. -/
def grantsIn (E : Ext) (d : PyDict Key Val) (t : Name) : Option Shown :=
  (d.get? (.ty t)).map (shown (initialDicts E) publicV)

/-! ## The parts of the run -/

theorem imp_reg (c : Setup) : table (imported c) "_checkers" = regB c := (import_parts c).2.1
theorem imp_defaults (c : Setup) : table (imported c) "_default_checkers" = defaultsB c.btrees := (import_parts c).2.2.1
theorem imp_basic (c : Setup) : table (imported c) "BasicTypes" = basicA c := (import_parts c).2.2.2.1
theorem imp_pub (c : Setup) : importedPublic c = pub := by
  have h : (imported c).app "CheckerPublic" = some (.v pub) := (import_parts c).2.2.2.2.2.1
  rw [importedPublic, h]
theorem imp_dicts (c : Setup) {k : Nat} (hk : k ∈ heads.flatMap fun k => [k, k + 1]) : (imported c).dicts k = look (heap c) k :=
  List.map_inj_left.mp (import_parts c).2.2.2.2.2.2.2 k hk

/-! ## What the checkers grant -/

theorem names_shown (ns kws : List Name) :
    (names ns kws).map (fun e => (e.1, decide (e.2 = pub))) =
      (dataOf (namesData ns publicV (kws.map fun n => (n, publicV)))).map fun e => (e.1, decide (e.2 = publicV)) := by
  have h1 := namesData_same1 pub ns kws
  have h2 := namesData_same1 publicV ns kws
  simp only [same1] at h1 h2
  simp only [names, h1, h2, dataOf, List.map_map, Function.comp_def, decide_true]

/-- The checkers of the run grant what those of the initial state grant. -/
theorem ck_shown (c : Setup) : ∀ e ∈ checkerPairs,
    shown (imported c).dicts pub (ck e.1) = shown (initialDicts c.ext) publicV (initChecker e.2) := by
  intro e he
  have hk : ∀ k ∈ [e.1, e.1 + 1], k ∈ heads.flatMap fun k => [k, k + 1] := by
    intro k hk
    exact List.mem_flatMap.mpr ⟨e.1, List.mem_cons_of_mem _ (List.mem_cons_of_mem _ (List.mem_cons_of_mem _ (List.mem_map_of_mem he))), hk⟩
  have h0 := imp_dicts c (hk e.1 (by simp))
  have h1 := imp_dicts c (hk (e.1 + 1) (by simp))
  simp only [ck, initChecker, shown, h0, h1]
  simp only [checkerPairs, List.mem_cons, List.not_mem_nil, or_false] at he
  rcases he with rfl | rfl | rfl | rfl | rfl | rfl | rfl | rfl | rfl | rfl | rfl | rfl | rfl
  · exact congr (congrArg Shown.names (names_shown callableNames [])) rfl
  · exact congr (congrArg Shown.names (names_shown typeNames [])) rfl
  · exact congr (congrArg Shown.names (names_shown namedNames [])) rfl
  · exact congr (congrArg Shown.names (names_shown iteratorNames [])) rfl
  · exact congr (congrArg Shown.names (names_shown setNames [])) rfl
  · exact congr (congrArg Shown.names (names_shown c.ext.iDeclaration ["_implied", "subscribe", "unsubscribe", "__call__"])) rfl
  · exact congr (congrArg Shown.names (names_shown dictNames [])) rfl
  · exact congr (congrArg Shown.names (names_shown listNames [])) rfl
  · exact congr (congrArg Shown.names (names_shown decimalNames [])) rfl
  · exact congr (congrArg Shown.names (names_shown tupleNames [])) rfl
  · exact congr (congrArg Shown.names (names_shown ["__call__"] [])) rfl
  · exact congr (congrArg Shown.names (names_shown c.ext.iInterface ["__str__", "_implied", "subscribe", "__len__"])) rfl
  · exact congr (congrArg Shown.names (names_shown c.ext.iMethod [])) rfl

theorem known_shown (c : Setup) {v : Val} (h : known v = true) :
    shown (imported c).dicts pub v = shown (initialDicts c.ext) publicV (conv v) := by
  simp only [known, Bool.or_eq_true, decide_eq_true_eq, List.any_eq_true] at h
  rcases h with (rfl | rfl) | ⟨e, he, rfl⟩
  · rfl
  · rfl
  · have hc : ∀ e ∈ checkerPairs, conv (ck e.1) = initChecker e.2 := by decide
    rw [hc e he, ck_shown c e he]

theorem conv_inj {v w : Val} (hv : known v = true) (hw : known w = true) (h : conv v = conv w) : v = w := by
  have key : ∀ v ∈ Val.noProxy :: moduleFactory :: checkerPairs.map (fun e => ck e.1),
      ∀ w ∈ Val.noProxy :: moduleFactory :: checkerPairs.map (fun e => ck e.1), conv v = conv w → v = w := by decide +kernel
  have mem : ∀ {v : Val}, known v = true → v ∈ Val.noProxy :: moduleFactory :: checkerPairs.map (fun e => ck e.1) := by
    intro v h
    simp only [known, Bool.or_eq_true, decide_eq_true_eq, List.any_eq_true] at h
    rcases h with (rfl | rfl) | ⟨e, he, rfl⟩
    · exact List.mem_cons_self
    · exact List.mem_cons_of_mem _ List.mem_cons_self
    · exact List.mem_cons_of_mem _ (List.mem_cons_of_mem _ (List.mem_map_of_mem (f := fun e : Nat × Nat => ck e.1) he))
  exact key v (mem hv) w (mem hw) h

/-! ## Looking up a type -/

theorem get_plain (t : Name) (ht : t ∉ btreeTypes) : ∀ d : PyDict Name Val, (plain d).get? t = d.get? t
  | [] => rfl
  | (k, v) :: r => by
    have ih := get_plain t ht r
    simp only [plain] at ih
    by_cases hk : k ∈ btreeTypes
    · have : k ≠ t := fun h => ht (h ▸ hk)
      simp only [plain, List.filter_cons, hk, decide_true, Bool.not_true, Bool.false_eq_true, if_false, PyDict.get?, this, ih]
    · simp only [plain, List.filter_cons, hk, decide_false, Bool.not_false, if_true, PyDict.get?, ih]

theorem get_there (c : Setup) (t : Name) (ht : t = "UTC" → c.pytz = true) : ∀ d : PyDict Key Val, (there c d).get? (.ty t) = d.get? (.ty t)
  | [] => rfl
  | (k, v) :: r => by
    have ih := get_there c t ht r
    simp only [there] at ih
    simp only [there, List.filter_cons]
    split
    · simp only [PyDict.get?, ih]
    · rename_i h
      simp only [Bool.or_eq_true, decide_eq_true_eq, not_or, Bool.not_eq_true, Decidable.not_not] at h
      have : k ≠ .ty t := by
        intro hk
        rw [h.2] at hk
        have := ht (Key.ty.inj hk).symm
        rw [h.1] at this
        cases this
      simp only [PyDict.get?, this, if_false, ih]

theorem get_map (f : Val → Val) (t : Name) : ∀ d : PyDict Name Val,
    PyDict.get? (d.map fun e => (Key.ty e.1, f e.2)) (.ty t) = (d.get? t).map f
  | [] => rfl
  | (k, v) :: r => by
    have ih := get_map f t r
    simp only [List.map_cons, PyDict.get?, Key.ty.injEq]
    split
    · rfl
    · exact ih

theorem get_known {t : Name} {v : Val} : ∀ {d : PyDict Name Val}, (d.all fun e => known e.2) = true → d.get? t = some v → known v = true
  | [], _, h => by cases h
  | (k, w) :: r, hd, h => by
    simp only [List.all_cons, Bool.and_eq_true] at hd
    simp only [PyDict.get?] at h
    split at h
    · cases h; exact hd.1
    · exact get_known hd.2 h

theorem agree_get {c : Setup} {d : PyDict Name Val} {D : PyDict Key Val} (h : agree c d D) {t : Name} (ht : t ∉ btreeTypes)
    (hu : t = "UTC" → c.pytz = true) : D.get? (.ty t) = (d.get? t).map conv := by
  have h1 := (Prod.mk.inj h).1
  rw [← get_there c t hu, ← h1, get_map, get_plain t ht]

theorem agree_shown {c : Setup} {d : PyDict Name Val} {D : PyDict Key Val} (h : agree c d D) {t : Name} (ht : t ∉ btreeTypes)
    (hu : t = "UTC" → c.pytz = true) : (d.get? t).map (shown (imported c).dicts pub) = grantsIn c.ext D t := by
  rw [grantsIn, agree_get h ht hu]
  cases hv : d.get? t with
  | none => rfl
  | some v => simp only [Option.map_some, known_shown c (get_known (Prod.mk.inj h).2 hv)]

theorem get_absent {k : Key} : ∀ {d : PyDict Key Val}, k ∉ d.map Prod.fst → d.get? k = none
  | [], _ => rfl
  | (k', v) :: r, h => by
    simp only [List.map_cons, List.mem_cons, not_or] at h
    simp only [PyDict.get?, if_neg (Ne.symm h.1), get_absent h.2]

/-! ## The theorems -/

/-- The import succeeds, whatever the environment. -/
theorem C82_import (c : Setup) : (importChecker c).1 = .ok (.next []) := (import_parts c).1

/-- What is registered for a type after the import is what the model starts from: in `_checkers`, in `_default_checkers` and in `BasicTypes`. -/
theorem C82_tables {A : Type} (c : Setup) (a : A) (t : Name) (ht : t ∉ btreeTypes) (hu : t = "UTC" → c.pytz = true) :
    grants c "_checkers" t = grantsIn c.ext (initial c.ext a).reg t ∧
    grants c "_default_checkers" t = grantsIn c.ext (initial c.ext a).defaults t ∧
    grants c "BasicTypes" t = grantsIn c.ext (initial c.ext a).basic t := by
  simp only [grants, imp_reg, imp_defaults, imp_basic, imp_pub]
  exact ⟨agree_shown (agree_reg c) ht hu, agree_shown (agree_defaults c) ht hu, agree_shown (agree_basic c) ht hu⟩

/-- Two types share a checker after the import just if they share one in the model. -/
theorem C82_shared {A : Type} (c : Setup) (a : A) (t u : Name) (ht : t ∉ btreeTypes) (hu : u ∉ btreeTypes)
    (ht' : t = "UTC" → c.pytz = true) (hu' : u = "UTC" → c.pytz = true) :
    (table (imported c) "_checkers").get? t = (table (imported c) "_checkers").get? u ↔
      (initial c.ext a).reg.get? (.ty t) = (initial c.ext a).reg.get? (.ty u) := by
  have h := agree_reg c
  have e1 : (initial c.ext a).reg.get? (.ty t) = _ := agree_get h ht ht'
  have e2 : (initial c.ext a).reg.get? (.ty u) = _ := agree_get h hu hu'
  rw [imp_reg, e1, e2]
  constructor
  · intro h; rw [h]
  · intro h'
    cases hv : (regB c).get? t with
    | none =>
      cases hw : (regB c).get? u with
      | none => rfl
      | some w => rw [hv, hw] at h'; cases h'
    | some v =>
      cases hw : (regB c).get? u with
      | none => rw [hv, hw] at h'; cases h'
      | some w =>
        rw [hv, hw] at h'
        rw [conv_inj (get_known (Prod.mk.inj h).2 hv) (get_known (Prod.mk.inj h).2 hw) (Option.some.inj h')]

/-- The types of the views and iterators of BTrees are registered just if BTrees is there, and then as the iterators of Python are. -/
theorem C82_btrees (c : Setup) (t : Name) (ht : t ∈ btreeTypes) :
    grants c "_checkers" t = if c.btrees then grants c "_checkers" "list_iterator" else none := by
  have h := List.map_inj_left.mp (trees_entries c) t ht
  have hl : (regB c).get? "list_iterator" = some (ck 17) := by
    have := agree_get (agree_reg c) (t := "list_iterator") (by decide) (fun h => absurd h (by decide))
    have h0 : PyDict.get? (PyDict.update (PyDict.update [] defaultCheckers) basicTypes) (.ty "list_iterator") = some (initChecker 5) := by
      decide +kernel
    rw [h0] at this
    cases hv : (regB c).get? "list_iterator" with
    | none => rw [hv] at this; cases this
    | some v =>
      rw [hv] at this
      exact congrArg some (conv_inj (get_known (Prod.mk.inj (agree_reg c)).2 hv) (by decide) ((Option.some.inj this).symm.trans (by decide)))
  simp only [grants, imp_reg, hl]
  cases hb : c.btrees with
  | false => rw [hb] at h; rw [(Prod.mk.inj h).1]; rfl
  | true => rw [hb] at h; rw [(Prod.mk.inj h).1]; rfl

/-- Without pytz nothing is registered for the class of `pytz.UTC`. -/
theorem C82_no_pytz (c : Setup) (h : c.pytz = false) : grants c "_checkers" "UTC" = none := by
  have hm : (Key.ty "UTC") ∉ (there c (PyDict.update (PyDict.update [] defaultCheckers) basicTypes)).map Prod.fst := by
    intro hm
    obtain ⟨e, he, h1⟩ := List.mem_map.mp hm
    have := (List.mem_filter.mp he).2
    simp [h, h1] at this
  have h0 : PyDict.get? (there c (PyDict.update (PyDict.update [] defaultCheckers) basicTypes)) (.ty "UTC") = none :=
    get_absent hm
  rw [← (Prod.mk.inj (agree_reg c)).1, get_map, get_plain _ (by decide)] at h0
  rw [grants, imp_reg]
  cases hv : (regB c).get? "UTC" with
  | none => rfl
  | some v => rw [hv] at h0; cases h0

/-- `_available_by_default` is what the model has. -/
theorem C82_available {A : Type} (c : Setup) (a : A) :
    (imported c).app "_available_by_default" = some (.list ((initial c.ext a).avail.map fun n => .v (.str 0 n))) :=
  (import_parts c).2.2.2.2.1

/-- `CheckerPublic` is a proxy of the global object, and lets nothing but `__reduce__` and `__module__` be read. -/
theorem C82_public (c : Setup) : ∃ i k, importedPublic c = .proxy i (.obj 0) k ∧
    shown (imported c).dicts (importedPublic c) k = .names [("__reduce__", true), ("__module__", true)] [] := by
  refine ⟨3, .checker 2 0 1, imp_pub c, ?_⟩
  simp only [shown, imp_pub, imp_dicts c (k := 0) (by decide), imp_dicts c (k := 1) (by decide)]
  rfl

/-- `_defaultChecker` grants nothing. -/
theorem C82_default (c : Setup) : ∃ k, (imported c).app "_defaultChecker" = some (.v k) ∧
    shown (imported c).dicts (importedPublic c) k = .names [] [] := by
  refine ⟨_, (import_parts c).2.2.2.2.2.2.1, ?_⟩
  split
  · simp only [shown, imp_dicts c (k := 1002) (by decide), imp_dicts c (k := 1003) (by decide)]
    rfl
  · simp only [shown, ck, imp_dicts c (k := 5) (by decide), imp_dicts c (k := 6) (by decide)]
    rfl

/-- The factory registered for modules returns the checker of the module, or `_namedChecker`. -/
theorem C82_module_factory {A : Type} (X : Ctx A) (m : Name) :
    run (lang X own) Src.Checker._lambda_894 [.v (.module m)] = val (callFactory X moduleFactory (.module m)) := by
  have hg : (lglob "_namedChecker" : M A PV) = pure (.v namedChecker) := rfl
  apply ext_fork
  intro s
  pysteps [hg, Src.Checker._lambda_894, callFactory, moduleFactory]

end ZS.Props

/-! ## Cases -/

namespace ZS.Props.ModuleExamples
open ZS ZS.PyC ZS.Props

/-- With the C module, `ZOPE_WATCH_CHECKERS=yes`, and both packages. -/
def full : Setup := ⟨.c, .word, true, true, true, ⟨["names", "getDescriptionFor"], ["getSignatureInfo"], ["flattened"]⟩⟩

/-- `PURE_PYTHON`, and none of them. -/
def bare : Setup := ⟨.pure, .unset, false, false, false, ⟨[], [], []⟩⟩

/-- A tuple's names are public, and nothing of a tuple may be written. -/
example : grants full "_checkers" "tuple" = some (.names
    [("__getitem__", true), ("__add__", true), ("__radd__", true), ("__contains__", true), ("__len__", true), ("__iter__", true), ("__str__", true)] []) := by
  rw [(C82_tables full () "tuple" (by decide) (fun _ => rfl)).1]
  decide +kernel

/-- A declaration of zope.interface: the names given by keyword come first, then those of its interface. -/
example : grants full "_checkers" "Declaration" = some (.names
    [("_implied", true), ("subscribe", true), ("unsubscribe", true), ("__call__", true), ("flattened", true)] []) := by
  rw [(C82_tables full () "Declaration" (by decide) (fun _ => rfl)).1]
  decide +kernel

/-- What classes implement is not proxied: the fix-up replaces the checker of the default table. -/
example : grants bare "_checkers" "Implements" = some .bare := by
  rw [(C82_tables bare () "Implements" (by decide) (fun h => absurd h (by decide))).1]
  decide +kernel

example : grants bare "_checkers" "module" = some .modules ∧ grants bare "_default_checkers" "int" = none ∧ grants bare "BasicTypes" "int" = some .bare ∧
    grants bare "_checkers" "bytearray" = none := by
  rw [(C82_tables bare () "module" (by decide) (fun h => absurd h (by decide))).1,
    (C82_tables bare () "int" (by decide) (fun h => absurd h (by decide))).2.1,
    (C82_tables bare () "int" (by decide) (fun h => absurd h (by decide))).2.2,
    (C82_tables bare () "bytearray" (by decide) (fun h => absurd h (by decide))).1]
  decide +kernel

/-- Sets and frozen sets share a checker; sets and lists do not. -/
example : (table (imported full) "_checkers").get? "set" = (table (imported full) "_checkers").get? "frozenset" ∧
    (table (imported full) "_checkers").get? "set" ≠ (table (imported full) "_checkers").get? "list" := by
  rw [ne_eq, C82_shared full () "set" "frozenset" (by decide) (by decide) (fun _ => rfl) (fun _ => rfl),
    C82_shared full () "set" "list" (by decide) (by decide) (fun _ => rfl) (fun _ => rfl)]
  decide +kernel

/-- With BTrees and without. -/
example : grants full "_checkers" "OOTreeItems" = some (.names
      [("next", true), ("__next__", true), ("__iter__", true), ("__len__", true), ("__length_hint__", true)] []) ∧
    grants bare "_checkers" "OOTreeItems" = none := by
  rw [C82_btrees full "OOTreeItems" (by decide), C82_btrees bare "OOTreeItems" (by decide), if_pos (show full.btrees = true from rfl), if_neg (show ¬bare.btrees = true by decide),
    (C82_tables full () "list_iterator" (by decide) (fun _ => rfl)).1]
  decide +kernel

/-- With pytz and without. -/
example : grants full "_checkers" "UTC" = some .bare ∧ grants bare "_checkers" "UTC" = none := by
  rw [(C82_tables full () "UTC" (by decide) (fun _ => rfl)).1, C82_no_pytz bare rfl]
  decide +kernel

end ZS.Props.ModuleExamples
