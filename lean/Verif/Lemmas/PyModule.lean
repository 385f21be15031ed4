import Verif.Lemmas.KernelRfl
import Verif.Lemmas.PyRun
import Verif.Model.PyModule

/-!
# Running the statements of checker.py

The run is split where `_default_checkers` has been filled (`modA`) and the fix-ups begin (`modB`).  What it leaves in the state is computed by the
kernel, for every setup and with the interfaces of zope.interface left open.
-/

namespace ZS.PyC
open ZS

/-! ## Dictionaries in which all permissions are the same -/

/-- A name added to the names of a dictionary. -/
def addKey (ks : List Name) (n : Name) : List Name := if n ∈ ks then ks else ks ++ [n]

/-- The dictionary that maps all of `ks` to `p`. -/
def same1 (p : Val) (ks : List Name) : PyDict Name Val := ks.map fun n => (n, p)

theorem set_same1 (p : Val) (n : Name) : ∀ ks : List Name, (same1 p ks).set n p = same1 p (addKey ks n)
  | [] => rfl
  | k :: ks => by
    have ih := set_same1 p n ks
    simp only [same1, List.map_cons, PyDict.set] at ih ⊢
    by_cases h : k = n
    · subst h; simp [addKey]
    · rw [if_neg h, ih]
      unfold addKey
      by_cases h' : n ∈ ks <;> simp [h', Ne.symm h]

theorem get_same1 (p : Val) (n : Name) : ∀ ks : List Name, (PyDict.get? (same1 p ks) n).getD p = p
  | [] => rfl
  | k :: ks => by
    have ih := get_same1 p n ks
    simp only [same1, List.map_cons, PyDict.get?] at ih ⊢
    by_cases h : k = n
    · simp [h]
    · simp [h, ih]

theorem addNames_same1 (p : Val) : ∀ ns ks : List Name,
    addNames (same1 p ks) (ns.map fun n => (n, p)) = .ok (same1 p (ns.foldl addKey ks))
  | [], _ => rfl
  | n :: ns, ks => by
    simp only [List.map_cons, addNames, addName, get_same1, set_same1, List.foldl_cons, ne_eq, not_true_eq_false, if_false]
    exact addNames_same1 p ns _

theorem update_same1 (p : Val) : ∀ ns ks : List Name, PyDict.update (same1 p ks) (same1 p ns) = same1 p (ns.foldl addKey ks)
  | [], _ => rfl
  | n :: ns, ks => by
    have ih := update_same1 p ns (addKey ks n)
    simp only [PyDict.update, same1, List.map_cons, List.foldl_cons] at ih ⊢
    have := set_same1 p n ks
    simp only [same1] at this
    rw [this, ih]

theorem namesData_same1 (p : Val) (ns kws : List Name) :
    namesData ns p (same1 p kws) = .ok (same1 p (ns.foldl addKey (kws.foldl addKey []))) := by
  have := update_same1 p kws []
  rw [namesData, show PyDict.update [] (same1 p kws) = _ from this, addNames_same1]

/-! ## Checkers all of whose names have the same permission -/

/-- All keyword arguments are the permission. -/
def allSame (p : Val) (kws : PyDict Name Val) : Bool := kws.all fun e => decide (e.2 = p)

theorem allSame_eq {p : Val} {kws : PyDict Name Val} (h : allSame p kws = true) : kws = same1 p (kws.map Prod.fst) := by
  simp only [allSame, List.all_eq_true, decide_eq_true_eq] at h
  simp only [same1, List.map_map]
  conv => lhs; rw [← List.map_id kws]
  apply List.map_congr_left
  intro e he
  simp only [id, Function.comp, ← h e he]

/-- `nchecker` where it cannot fail. -/
def maker : Maker := fun ns p kws =>
  match ns, kws with
  | some ns, some kws =>
    if allSame p kws then val (do
      let g ← newDict (dataOf (namesData ns p kws))
      let st ← newDict []
      newChecker g st)
    else val (namesChecker ns p kws)
  | _, _ => stuck

theorem nchecker_maker : nchecker = maker := by
  funext ns p kws
  cases ns with
  | none => cases kws <;> rfl
  | some ns => cases kws with
    | none => rfl
    | some kws =>
      simp only [nchecker, maker]
      split
      · rename_i h
        rw [allSame_eq h, namesChecker, namesData_same1]
        rfl
      · rfl

/-! ## The state in between -/

/-- The value of `n` in the module is a dictionary with these entries. -/
def table (s : St Vars) (n : Name) : PyDict Name Val :=
  match s.app n with
  | some (.dict d) => s.dicts d
  | _ => []

/-- The contents of dictionaries, the latest first. -/
def look : List (Nat × PyDict Name Val) → Nat → PyDict Name Val
  | [], _ => []
  | (n, d) :: r, k => if k = n then d else look r k

/-- `CheckerPublic`. -/
def pub : Val := .proxy 3 (.obj 0) (.checker 2 0 1)
/-- The dictionary of a checker of which all names are public. -/
def names (ns : List Name) (kws : List Name) : PyDict Name Val := dataOf (namesData ns pub (kws.map fun n => (n, pub)))
/-- `_basic_types`. -/
def basicA (c : Setup) : PyDict Name Val :=
  (["object", "int", "float", "complex", "NoneType", "str", "bytes", "Message", "bool",
   "timedelta", "datetime", "date", "time", "tzinfo", "dict_values", "dict_keys",
   "dict_items"] ++ if c.pytz then ["UTC"] else []).map fun t => (t, Val.noProxy)
/-- The checker made after dictionary `k`. -/
def ck (k : Nat) : Val := .checker (k + 2) k (k + 1)
/-- `_default_checkers` before the fix-ups. -/
def defaultsA : PyDict Name Val :=
  [("dict", ck 31), ("list", ck 34), ("set", ck 20), ("frozenset", ck 20), ("Decimal", ck 37), ("tuple", ck 40),
   ("Proxy", .noProxy), ("weakref", ck 43), ("function", ck 8), ("method", ck 8), ("builtin_function_or_method", ck 8),
   ("builtin_method", ck 8), ("method-wrapper", ck 8), ("type", ck 11), ("module", moduleFactory),
   ("list_iterator", ck 17), ("tuple_iterator", ck 17), ("dict_keyiterator", ck 17), ("set_iterator", ck 17),
   ("iterator", ck 17), ("generator", ck 17), ("InterfaceClass", ck 47), ("Method", ck 50), ("Provides", ck 28),
   ("ClassProvides", ck 28), ("Implements", ck 28), ("Declaration", ck 28), ("ABCMeta", ck 11)]
/-- The dictionaries, the latest change first. -/
def heapA (c : Setup) : List (Nat × PyDict Name Val) :=
  [(53, defaultsA), (51, []), (50, names c.ext.iMethod []), (48, []), (47, names c.ext.iInterface ["__str__", "_implied", "subscribe", "__len__"]),
   (46, []), (44, []), (43, names ["__call__"] []), (41, []), (40, names tupleNames []), (38, []), (37, names decimalNames []),
   (35, []), (34, names listNames []), (32, []), (31, names dictNames []), (29, []),
   (28, names c.ext.iDeclaration ["_implied", "subscribe", "unsubscribe", "__call__"]), (27, basicA c)] ++
  (if c.pytz then [(26, basicA c)] else []) ++
  [(26, basicA { c with pytz := false }), (25, []), (24, []), (23, []), (21, []), (20, names setNames []), (18, []), (17, names iteratorNames []),
   (15, []), (14, names namedNames []), (12, []), (11, names typeNames []), (9, []), (8, names callableNames []), (6, []), (5, []), (4, []),
   (0, [("__reduce__", pub), ("__module__", pub)]), (0, [("__reduce__", pub)]), (1, []), (0, [])]
/-- A list of names. -/
def L (t : List Name) : PV := .list (t.map fun n => .v (.str 0 n))
/-- The variables, the latest assignment first. -/
def globA (c : Setup) : Env :=
  [("_default_checkers", .dict 53), ("_Declaration_checker", .v (ck 28)), ("BasicTypes", .dict 27), ("_basic_types", .dict 26),
   ("_setChecker", .v (ck 20)), ("_iteratorChecker", .v (ck 17)), ("_namedChecker", .v (ck 14)), ("_typeChecker", .v (ck 11)), ("_callableChecker", .v (ck 8)),
   ("_available_by_default", L availableByDefault)] ++
  (if c.watch = .unset then [] else [("CombinedChecker", .sym "WatchingCombinedChecker"), ("Checker", .sym "WatchingChecker")]) ++
  [("_getChecker", .bound (.dict (if c.build = .c then 1000 else 4)) "get")] ++
  (if c.build = .c then [("selectChecker", .sym "selectChecker"), ("_defaultChecker", .v (.checker 1001 1002 1003)), ("_checkers", .dict 1000),
    ("_available_by_default", .list []), ("NoProxy", .v .noProxy), ("Checker", .sym "Checker")] else []) ++
  (if c.build = .missing then [("_c_available", .v (.bool false))] else []) ++
  [("_c_available", .v (.bool (decide (c.build ≠ .pure)))), ("_available_by_default", .list []), ("_defaultChecker", .v (ck 5)), ("_checkers", .dict 4),
   ("NoProxy", .v .noProxy), ("DEFINABLE_TYPES", .tuple [typeV "type", typeV "module"]), ("selectChecker", .sym "selectCheckerPy"),
   ("CheckerPublic", .v pub), ("d", .dict 0), ("CP_HACK_XXX", .v (.obj 0)), ("CheckerPublic", .v (.obj 0)), ("Checker", .sym "CheckerPy")] ++
  (match c.watch with | .unset => [] | .number => [("WATCH_CHECKERS", .v (.int 2))] | .word => [("WATCH_CHECKERS", .v (.int 1))]) ++
  [("WATCH_CHECKERS", .v (.int 0))]


/-- The variables in an order that depends on nothing. -/
def globs (c : Setup) : Env :=
  [("_default_checkers", .dict 53), ("_iteratorChecker", .v (ck 17)), ("NoProxy", .v .noProxy), ("BasicTypes", .dict 27),
   ("_checkers", .dict (if c.build = .c then 1000 else 4)), ("_available_by_default", L availableByDefault), ("CheckerPublic", .v pub),
   ("_defaultChecker", .v (if c.build = .c then .checker 1001 1002 1003 else ck 5)), ("_Declaration_checker", .v (ck 28)), ("_basic_types", .dict 26),
   ("_setChecker", .v (ck 20)), ("_namedChecker", .v (ck 14)), ("_typeChecker", .v (ck 11)), ("_callableChecker", .v (ck 8)),
   ("_getChecker", .bound (.dict (if c.build = .c then 1000 else 4)) "get"),
   ("selectChecker", .sym (if c.build = .c then "selectChecker" else "selectCheckerPy")),
   ("Checker", .sym (if c.watch = .unset then (if c.build = .c then "Checker" else "CheckerPy") else "WatchingChecker")),
   ("_c_available", .v (.bool (decide (c.build = .c)))), ("DEFINABLE_TYPES", .tuple [typeV "type", typeV "module"]),
   ("d", .dict 0), ("CP_HACK_XXX", .v (.obj 0)),
   ("WATCH_CHECKERS", .v (.int (match c.watch with | .unset => 0 | .number => 2 | .word => 1))),
   ("CombinedChecker", .sym (if c.watch = .unset then "CombinedChecker" else "WatchingCombinedChecker"))]

/-- The dictionaries in an order that depends on nothing. -/
def heap (c : Setup) : List (Nat × PyDict Name Val) :=
  [(53, defaultsA), (27, basicA c), (26, basicA c), (0, [("__reduce__", pub), ("__module__", pub)]), (8, names callableNames []),
   (11, names typeNames []), (14, names namedNames []), (17, names iteratorNames []), (20, names setNames []),
   (28, names c.ext.iDeclaration ["_implied", "subscribe", "unsubscribe", "__call__"]), (31, names dictNames []), (34, names listNames []),
   (37, names decimalNames []), (40, names tupleNames []), (43, names ["__call__"] []),
   (47, names c.ext.iInterface ["__str__", "_implied", "subscribe", "__len__"]), (50, names c.ext.iMethod [])]

/-- The state when `_default_checkers` has been filled. -/
def stateA (c : Setup) : St Vars := { unimported with dicts := look (heap c), nextId := 54, app := Env.get? (globs c) }

/-- Up to `_default_checkers = {...}`. -/
def modA : List Stmt := Src.Checker._module.take 33

/-- From the call of `_fixup_odict` on. -/
def modB : List Stmt := Src.Checker._module.drop 33

/-- A chain of assignments to variables. -/
def chain : Env → Vars
  | [] => unimported.app
  | (n, x) :: r => fun m => if m = n then some x else chain r m

theorem chain_eq : ∀ e : Env, chain e = Env.get? (e ++ [("CombinedChecker", .sym "CombinedChecker")])
  | [] => by
    funext m
    simp only [chain, unimported, List.nil_append, Env.get?, eq_comm]
  | (n, x) :: r => by
    funext m
    simp only [chain, List.cons_append, Env.get?, chain_eq r, eq_comm]

theorem runA' (c : Setup) : execs (moduleLang maker c 2) modA none [] unimported =
    (.ok (.next []), { unimported with dicts := look (heapA c), nextId := 54, app := chain (globA c) }) := by
  obtain ⟨b, w, p, bt, te, E⟩ := c
  cases b <;> cases w <;> cases p <;> kernel_rfl

/-- Two lists of variables in which the same is found. -/
theorem get_ext {e e' : Env} (h : ((e ++ e').map Prod.fst).map (Env.get? e) = ((e ++ e').map Prod.fst).map (Env.get? e')) :
    Env.get? e = Env.get? e' := by
  have none : ∀ (e : Env) (n : Name), n ∉ e.map Prod.fst → Env.get? e n = none := by
    intro e n hn
    induction e with
    | nil => rfl
    | cons a r ih =>
      simp only [List.map_cons, List.mem_cons, not_or] at hn
      simp only [Env.get?, if_neg (Ne.symm hn.1), ih hn.2]
  funext n
  by_cases hn : n ∈ (e ++ e').map Prod.fst
  · exact List.map_inj_left.mp h n hn
  · simp only [List.map_append, List.mem_append, not_or] at hn
    rw [none e n hn.1, none e' n hn.2]

theorem globA_eq (c : Setup) : Env.get? (globA c ++ [("CombinedChecker", .sym "CombinedChecker")]) = Env.get? (globs c) := by
  obtain ⟨b, w, p, bt, te, E⟩ := c
  apply get_ext
  cases b <;> cases w <;> kernel_rfl

/-- Two lists of dictionaries in which the same is found. -/
theorem look_ext {e e' : List (Nat × PyDict Name Val)}
    (h : ((e ++ e').map Prod.fst).map (look e) = ((e ++ e').map Prod.fst).map (look e')) : look e = look e' := by
  have none : ∀ (e : List (Nat × PyDict Name Val)) (n : Nat), n ∉ e.map Prod.fst → look e n = [] := by
    intro e n hn
    induction e with
    | nil => rfl
    | cons a r ih =>
      simp only [List.map_cons, List.mem_cons, not_or] at hn
      simp only [look, if_neg hn.1, ih hn.2]
  funext n
  by_cases hn : n ∈ (e ++ e').map Prod.fst
  · exact List.map_inj_left.mp h n hn
  · simp only [List.map_append, List.mem_append, not_or] at hn
    rw [none e n hn.1, none e' n hn.2]

theorem heapA_eq (c : Setup) : look (heapA c) = look (heap c) := by
  obtain ⟨b, w, p, bt, te, E⟩ := c
  apply look_ext
  cases p <;> kernel_rfl

theorem runA (c : Setup) : execs (moduleLang maker c 2) modA none [] unimported = (.ok (.next []), stateA c) := by
  rw [runA', chain_eq, globA_eq, heapA_eq]
  rfl

/-- The rest of the run. -/
def runB (c : Setup) : Res Flow × St Vars := execs (moduleLang maker c 2) modB none [] (stateA c)

theorem execs_then (L : Lang A) (b : List Stmt) (cur : Option Exn) (env' : Env) (s' : St A) : ∀ (a : List Stmt) (env : Env) (s : St A),
    execs L a cur env s = (.ok (.next env'), s') → execs L (a ++ b) cur env s = execs L b cur env' s'
  | [], env, s, h => by
    have h : ((Res.ok (Flow.next env) : Res Flow), s) = (.ok (.next env'), s') := h
    obtain ⟨h, rfl⟩ := Prod.mk.inj h
    cases h
    rfl
  | x :: a, env, s, h => by
    simp only [List.cons_append, execs] at h ⊢
    simp only [bind, M.bind] at h ⊢
    match hx : exec L x cur env s with
    | (.ok f, s1) =>
      rw [hx] at h
      simp only at h ⊢
      cases f with
      | next env1 => exact execs_then L b cur env' s' a env1 s1 h
      | _ => simp [pure, M.pure] at h
    | (.err e, s1) => rw [hx] at h; simp at h
    | (.diverge, s1) => rw [hx] at h; simp at h

theorem import_runB (c : Setup) : importChecker c = runB c := by
  rw [importChecker, nchecker_maker, show Src.Checker._module = modA ++ modB from (List.take_append_drop 33 _).symm]
  exact execs_then _ _ _ _ _ _ _ _ (runA c)

end ZS.PyC
