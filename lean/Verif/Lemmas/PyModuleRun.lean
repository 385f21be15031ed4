import Verif.Lemmas.PyModule

/-!
# What the fix-ups of checker.py leave

`left c` collects what is in the state when the run is over: the three tables, with the checkers of the run replaced by those of the model's initial
state (`conv`), and the contents of the dictionaries of the checkers.
-/

namespace ZS.PyC
open ZS

/-- The numbers of the checkers in the run and in the initial state of the model. -/
def checkerPairs : List (Nat × Nat) :=
  [(8, 3), (11, 4), (14, 2), (17, 5), (20, 6), (28, 14), (31, 7), (34, 8), (37, 9), (40, 10), (43, 11), (47, 12), (50, 13)]

/-- The checker of the initial state for a checker of the run. -/
def conv : Val → Val
  | .checker i g st =>
    match checkerPairs.find? fun e => decide (e.1 + 2 = i) with
    | some e => initChecker e.2
    | none => .checker i g st
  | v => v

/-- The types that BTrees adds. -/
def btreeTypes : List Name := "_TreeItems" :: btreeViews.flatMap fun v => [v.2.1, v.2.2]

/-- The dictionaries of the checkers of the run. -/
def heads : List Nat := 0 :: 5 :: 1002 :: checkerPairs.map Prod.fst

/-- A table without the types of BTrees. -/
def plain (d : PyDict Name Val) : PyDict Name Val := d.filter fun e => !decide (e.1 ∈ btreeTypes)

/-- The types there are: that of `pytz.UTC` only with pytz. -/
def there (c : Setup) (d : PyDict Key Val) : PyDict Key Val := d.filter fun e => c.pytz || decide (e.1 ≠ .ty "UTC")

/-- What is left. -/
structure Left where
  flow : Res Flow
  reg : PyDict Name Val
  defaults : PyDict Name Val
  basic : PyDict Name Val
  avail : Option PV
  pub : Option PV
  dflt : Option PV
  dicts : List (PyDict Name Val)

/-- What a run leaves. -/
def leftOf (r : Res Flow × St Vars) : Left :=
  ⟨r.1, table r.2 "_checkers", table r.2 "_default_checkers", table r.2 "BasicTypes",
   r.2.app "_available_by_default", r.2.app "CheckerPublic", r.2.app "_defaultChecker", (heads.flatMap fun k => [k, k + 1]).map r.2.dicts⟩

theorem leftOf_inj {r : Res Flow × St Vars} {w : Left} (h : leftOf r = w) :
    r.1 = w.flow ∧ table r.2 "_checkers" = w.reg ∧ table r.2 "_default_checkers" = w.defaults ∧ table r.2 "BasicTypes" = w.basic ∧
    r.2.app "_available_by_default" = w.avail ∧ r.2.app "CheckerPublic" = w.pub ∧ r.2.app "_defaultChecker" = w.dflt ∧
    (heads.flatMap fun k => [k, k + 1]).map r.2.dicts = w.dicts := by
  subst h
  exact ⟨rfl, rfl, rfl, rfl, rfl, rfl, rfl, rfl⟩

/-- The types that BTrees adds, as they are added. -/
def treesB : List Name :=
  ["_TreeItems", "IFTreeIterator", "IFTreeItems", "LFTreeIterator", "LFTreeItems", "IITreeIterator", "IITreeItems", "LLTreeIterator",
   "LLTreeItems", "IOTreeIterator", "IOTreeItems", "LOTreeIterator", "LOTreeItems", "OITreeIterator", "OITreeItems",
   "OLTreeIterator", "OLTreeItems", "OOTreeIterator", "OOTreeItems"]

/-- `_default_checkers` after the fix-ups. -/
def defaultsB (trees : Bool) : PyDict Name Val :=
  (defaultsA.map fun e => if e.1 = "Provides" ∨ e.1 = "Implements" then (e.1, .noProxy) else e) ++
  ((["odict_iterator", "odict_keys", "odict_items", "odict_values"] ++ (if trees then treesB else []) ++
    ["groupby", "_grouper", "count", "cycle", "dropwhile", "islice", "permutations", "product", "repeat", "starmap", "takewhile", "_tee",
     "zip_longest", "accumulate", "compress", "combinations", "combinations_with_replacement"]).map fun t => (t, ck 17))

/-- `_checkers` after `_clear()`. -/
def regB (c : Setup) : PyDict Name Val := PyDict.update (PyDict.update [] (defaultsB c.btrees)) (basicA c)

/-- What it is to leave. -/
def leftWant (c : Setup) : Left :=
  ⟨.ok (.next []), regB c, defaultsB c.btrees, basicA c, some (L availableByDefault), some (.v pub),
   some (.v (if c.build = .c then .checker 1001 1002 1003 else ck 5)), (heads.flatMap fun k => [k, k + 1]).map (look (heap c))⟩

theorem left_run (c : Setup) : leftOf (runB c) = leftWant c := by
  obtain ⟨b, w, p, bt, te, E⟩ := c
  cases b <;> cases bt <;> cases te <;> kernel_rfl

/-- What importing checker.py leaves. -/
theorem left_import (c : Setup) : leftOf (importChecker c) = leftWant c := by
  rw [import_runB, left_run]

theorem import_parts (c : Setup) :
    (importChecker c).1 = .ok (.next []) ∧ table (importChecker c).2 "_checkers" = regB c ∧
    table (importChecker c).2 "_default_checkers" = defaultsB c.btrees ∧ table (importChecker c).2 "BasicTypes" = basicA c ∧
    (importChecker c).2.app "_available_by_default" = some (L availableByDefault) ∧ (importChecker c).2.app "CheckerPublic" = some (.v pub) ∧
    (importChecker c).2.app "_defaultChecker" = some (.v (if c.build = .c then .checker 1001 1002 1003 else ck 5)) ∧
    (heads.flatMap fun k => [k, k + 1]).map (importChecker c).2.dicts = (heads.flatMap fun k => [k, k + 1]).map (look (heap c)) := by
  have h := leftOf_inj (left_import c)
  simp only [leftWant] at h
  exact h

/-! ## The tables and those of the model -/

/-- An entry that stands in the tables: no proxy, the factory for modules, or one of the checkers. -/
def known (v : Val) : Bool := decide (v = .noProxy) || decide (v = moduleFactory) || checkerPairs.any fun e => decide (v = ck e.1)

/-- A table of the run is that of the model. -/
def agree (c : Setup) (d : PyDict Name Val) (D : PyDict Key Val) : Prop :=
  ((plain d).map fun e => (Key.ty e.1, conv e.2), d.all fun e => known e.2) = (there c D, true)

theorem agree_reg (c : Setup) : agree c (regB c) (PyDict.update (PyDict.update [] defaultCheckers) basicTypes) := by
  obtain ⟨b, w, p, bt, te, E⟩ := c
  unfold agree
  cases p <;> cases bt <;> kernel_rfl

theorem agree_defaults (c : Setup) : agree c (defaultsB c.btrees) defaultCheckers := by
  obtain ⟨b, w, p, bt, te, E⟩ := c
  unfold agree
  cases p <;> cases bt <;> kernel_rfl

theorem agree_basic (c : Setup) : agree c (basicA c) basicTypes := by
  obtain ⟨b, w, p, bt, te, E⟩ := c
  unfold agree
  cases p <;> kernel_rfl

/-- The entries of the types of BTrees. -/
theorem trees_entries (c : Setup) : btreeTypes.map (fun t => ((regB c).get? t, (defaultsB c.btrees).get? t)) =
    btreeTypes.map (fun _ => if c.btrees then (some (ck 17), some (ck 17)) else (none, none)) := by
  obtain ⟨b, w, p, bt, te, E⟩ := c
  cases p <;> cases bt <;> kernel_rfl

end ZS.PyC
