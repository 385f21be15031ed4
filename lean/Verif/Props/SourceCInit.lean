import Verif.Spec.CInit
import Verif.Props.Import

/-!
# C88: the initialisation and the collector functions of the C modules, from source
-/

namespace ZS.CI

instance (m : String) (v : V) (s : I) : Decidable (Careful m v s) := by unfold Careful; infer_instance
instance (m : String) (s : I) : Decidable (Balanced m s) := by unfold Balanced; infer_instance

/-- Whatever fails, the run ends with a value and a state of this kind. -/
def Tree.all (p : V → I → Bool) : Tree → Bool
  | .done v s => p v s
  | .stuck => false
  | .ask k => (k true).all p && (k false).all p

theorem Tree.all_run {p : V → I → Bool} : ∀ {t : Tree}, t.all p = true → ∀ fails n, ∃ v s, t.run fails n = some (v, s) ∧ p v s = true
  | .done v s, h, _, _ => ⟨v, s, rfl, h⟩
  | .stuck, h, _, _ => by cases h
  | .ask k, h, fails, n => by
    simp only [Tree.all, Bool.and_eq_true] at h
    simp only [Tree.run]
    cases fails n with
    | true => exact all_run h.1 fails (n + 1)
    | false => exact all_run h.2 fails (n + 1)

def exposes (s : I) : Bool := s.exported.all fun e => decide (s.look e.1 = .obj e.2) ||
  match e.2 with
  | .type t => decide (t ∈ ["SecurityProxyType", "CheckerType"]) && decide (e.1 = typeName t)
  | _ => false

def goodInit (m : String) (body : List Imp.Line) (names : List String) (ready : List Ev) (v : V) (s : I) : Bool :=
  decide (Careful m v s) && (linesOf s).isPrefixOf body && exposes s &&
  (decide (v = .null) || (decide (linesOf s = body) && decide (readying s = ready))) &&
  (s.log.any failed || (decide (Balanced m s) && decide (methodNames m ++ s.exported.map Prod.fst = names)))

def proxyReady : List Ev :=
  [.slot "SecurityProxyType" "tp_alloc" (.name "PyType_GenericAlloc"), .slot "SecurityProxyType" "tp_free" (.name "PyObject_GC_Del"),
   .slot "SecurityProxyType" "tp_base" (.obj (.type "ProxyType")), .call "PyType_Ready" [.obj (.type "SecurityProxyType")] false]

def checkerReady : List Ev :=
  [.slot "CheckerType" "tp_new" (.name "PyType_GenericNew"), .call "PyType_Ready" [.obj (.type "CheckerType")] false]

set_option maxRecDepth 100000 in
theorem checker_good : (exec Src.PyInit__zope_security_checker .start).all
    (goodInit "_zope_security_checker" Imp.ccheckerBody (Imp.exports .cchecker) checkerReady) = true := by decide +kernel

set_option maxRecDepth 100000 in
theorem proxy_good : (exec Src.PyInit__proxy .start).all
    (goodInit "_proxy" Imp.cproxyBody (Imp.exports .cproxy) proxyReady) = true := by decide +kernel

theorem exposes_iff {s : I} (h : exposes s = true) : Exposes s := by
  intro e he
  have := (List.all_eq_true.mp h) e he
  simp only [Bool.or_eq_true, decide_eq_true_eq] at this
  rcases this with h | h
  · exact .inl h
  · right
    rcases e with ⟨x, o⟩
    cases o <;> simp only [Bool.false_eq_true, Bool.and_eq_true, decide_eq_true_eq] at h
    rename_i t
    refine ⟨List.mem_map_of_mem h.1, ?_⟩
    intro u hu
    injection hu with hu
    subst hu
    exact h.2

/-- What `goodInit` says. -/
theorem goodInit_elim {m : String} {body : List Imp.Line} {names : List String} {ready : List Ev} {v : V} {s : I}
    (h : goodInit m body names ready v s = true) :
    Careful m v s ∧ linesOf s <+: body ∧ Exposes s ∧ (v ≠ .null → linesOf s = body ∧ readying s = ready) ∧
    ((∀ e ∈ s.log, failed e = false) → Balanced m s ∧ methodNames m ++ s.exported.map Prod.fst = names) := by
  simp only [goodInit, Bool.and_eq_true, Bool.or_eq_true, decide_eq_true_eq, List.isPrefixOf_iff_prefix] at h
  obtain ⟨⟨⟨⟨h1, h2⟩, h3⟩, h4⟩, h5⟩ := h
  refine ⟨h1, h2, exposes_iff h3, fun hv => h4.resolve_left hv, fun hf => h5.resolve_left ?_⟩
  intro ha
  obtain ⟨e, he, hb⟩ := List.any_eq_true.mp ha
  rw [hf e he] at hb
  cases hb

/-! ## The collector -/

/-- An object with two fields that nothing was done with. -/
def obj2 {σ : Type} (f1 f2 : String) (a b : Option Nat) (arg : σ) : G σ := ⟨[(f1, a), (f2, b)], [], false, arg⟩

end ZS.CI

namespace ZS.Props
open ZS.CI

/-- **C88**, `PyInit__proxy`, run from its text: whichever calls fail, nothing undefined happens (no reference is given
back or passed on that is not owned, nothing is used that was given back); when a call fails nothing more is
called and NULL returned, otherwise the module; what it did up to then is a beginning of the lines of C73, all
of them if a module is returned, with the type made ready once after its slots and its base are set; what is in the module
is the type, under the name Python knows it by; and without a failure every reference is accounted for and the
module has the names C73 says. -/
theorem C88_init_proxy (fails : Nat → Bool) : ∃ v s, initRun CI.Src.PyInit__proxy fails = some (v, s) ∧
    Careful "_proxy" v s ∧ linesOf s <+: Imp.cproxyBody ∧ Exposes s ∧
    (v ≠ .null → linesOf s = Imp.cproxyBody ∧ readying s = proxyReady) ∧
    ((∀ e ∈ s.log, CI.failed e = false) → CI.Balanced "_proxy" s ∧
      methodNames "_proxy" ++ s.exported.map Prod.fst = Imp.exports .cproxy) := by
  obtain ⟨v, s, hr, h⟩ := Tree.all_run proxy_good fails 0
  exact ⟨v, s, hr, goodInit_elim h⟩

/-- **C88**, `PyInit__zope_security_checker`, run from its text. -/
theorem C88_init_checker (fails : Nat → Bool) : ∃ v s, initRun CI.Src.PyInit__zope_security_checker fails = some (v, s) ∧
    Careful "_zope_security_checker" v s ∧ linesOf s <+: Imp.ccheckerBody ∧ Exposes s ∧
    (v ≠ .null → linesOf s = Imp.ccheckerBody ∧ readying s = checkerReady) ∧
    ((∀ e ∈ s.log, CI.failed e = false) → CI.Balanced "_zope_security_checker" s ∧
      methodNames "_zope_security_checker" ++ s.exported.map Prod.fst = Imp.exports .cchecker) := by
  obtain ⟨v, s, hr, h⟩ := Tree.all_run checker_good fails 0
  exact ⟨v, s, hr, goodInit_elim h⟩

/-- **C88**, `tp_traverse`, run from the text: for every visiting function and whatever the fields hold, the value is
that of the model of C67 and so are the visits made; the object is not touched. -/
theorem C88_traverse {σ : Type} (visit : Gc.Visit σ) (s : σ) (a b : Option Nat) :
    gcRun visit CI.Src.proxy_traverse (obj2 "proxy_object" "proxy_checker" a b s) =
      some (.int (Gc.traverse (.proxy a b) visit s).1, obj2 "proxy_object" "proxy_checker" a b (Gc.traverse (.proxy a b) visit s).2) ∧
    gcRun visit CI.Src.Checker_traverse (obj2 "getperms" "setperms" a b s) =
      some (.int (Gc.traverse (.checker a b) visit s).1, obj2 "getperms" "setperms" a b (Gc.traverse (.checker a b) visit s).2) := by
  constructor
  · cases a <;> cases b <;>
      simp [gcRun, CI.Src.proxy_traverse, gcExec, gcEval, selfField, G.field, obj2, List.lookup, Gc.traverse, Gc.proxyTraverse, Gc.visitField] <;>
      repeat' split <;> simp_all
  · have step : ∀ (f : Option Nat) (t : σ), f = none ∨ (∃ o, f = some o ∧ (visit o t).1 < 0) ∨ ∃ o, f = some o ∧ ¬ (visit o t).1 < 0 := by
      intro f t
      cases f with
      | none => exact .inl rfl
      | some o => exact .inr ((Decidable.em _).imp (fun h => ⟨o, rfl, h⟩) fun h => ⟨o, rfl, h⟩)
    rcases step a s with rfl | ⟨o, rfl, h⟩ | ⟨o, rfl, h⟩
    · rcases step b s with rfl | ⟨o', rfl, h'⟩ | ⟨o', rfl, h'⟩
      · rfl
      all_goals simp +decide [gcRun, CI.Src.Checker_traverse, gcExec, gcEval, selfField, G.field, obj2, List.lookup, Gc.traverse, Gc.checkerTraverse,
        Gc.visitField, GV.truth, h']
    · simp +decide [gcRun, CI.Src.Checker_traverse, gcExec, gcEval, selfField, G.field, obj2, List.lookup, Gc.traverse, Gc.checkerTraverse,
        Gc.visitField, GV.truth, h]
    · rcases step b (visit o s).2 with rfl | ⟨o', rfl, h'⟩ | ⟨o', rfl, h'⟩
      all_goals simp +decide [gcRun, CI.Src.Checker_traverse, gcExec, gcEval, selfField, G.field, obj2, List.lookup, Gc.traverse, Gc.checkerTraverse,
        Gc.visitField, GV.truth, h]
      all_goals simp +decide [h']

/-- **C88**, the functions that clear the fields, run from the text: the references released are those of the
model of C67, in that order, and no field holds anything afterwards. -/
theorem C88_clear {σ : Type} (visit : Gc.Visit σ) (s : σ) (a b : Option Nat) :
    gcRun visit CI.Src.proxy_clear (obj2 "proxy_object" "proxy_checker" a b s) =
      some (.int 0, { obj2 "proxy_object" "proxy_checker" none none s with log := (Gc.proxyClear a b).2.map .release }) ∧
    gcRun visit CI.Src.Checker_clear (obj2 "getperms" "setperms" a b s) =
      some (.int 0, { obj2 "getperms" "setperms" none none s with log := (Gc.checkerClear a b).2.map .release }) := by
  constructor <;> cases a <;> cases b <;> rfl

/-- **C88**, `tp_dealloc`, run from the text: the object leaves the collector before anything is released, then the
references are released that the model of C67 says, each once, and last the memory is freed, once. -/
theorem C88_dealloc {σ : Type} (visit : Gc.Visit σ) (s : σ) (a b : Option Nat) :
    gcRun visit CI.Src.proxy_dealloc (obj2 "proxy_object" "proxy_checker" a b s) =
      some (.void, { obj2 "proxy_object" "proxy_checker" none none s with
        log := .untrack :: (Gc.dealloc (.proxy a b)).map .release ++ [.free], freed := true }) ∧
    gcRun visit CI.Src.Checker_dealloc (obj2 "getperms" "setperms" a b s) =
      some (.void, { obj2 "getperms" "setperms" none none s with
        log := .untrack :: (Gc.dealloc (.checker a b)).map .release ++ [.free], freed := true }) := by
  constructor <;> cases a <;> cases b <;> rfl

/-! Without a failure: the module of `_proxy.c` with the type in it. -/
example : (initRun CI.Src.PyInit__proxy fun _ => false).map (fun r => (r.1, r.2.exported, r.2.log.any CI.failed)) =
    some (.obj (.module "_proxy" "module_functions"), [("_Proxy", .type "SecurityProxyType")], false) := by decide +kernel

/-! The eighth call fails: NULL, after eight calls, with nothing in the module. -/
example : (initRun CI.Src.PyInit__zope_security_checker fun n => n == 7).map (fun r => (r.1, r.2.exported, r.2.calls)) =
    some (.null, [], 8) := by decide +kernel

/-- **C88.** A failing `PyModule_AddObject` goes unnoticed: the module is returned all the same, without the name, and with
a reference that nobody gives back. -/
theorem C88_overlooked : ∃ fails s, initRun CI.Src.PyInit__zope_security_checker fails =
      some (.obj (.module "_zope_security_checker" "module_functions"), s) ∧
    (∃ e ∈ s.log, CI.failed e = true) ∧ s.exported.map Prod.fst = ["_checkers", "NoProxy", "_defaultChecker", "_available_by_default"] ∧
    ¬ CI.Balanced "_zope_security_checker" s := by
  have h : ((initRun CI.Src.PyInit__zope_security_checker fun n => n == 22).map fun r =>
      (r.1, r.2.log.any CI.failed, r.2.exported.map Prod.fst, decide (CI.Balanced "_zope_security_checker" r.2))) =
      some (.obj (.module "_zope_security_checker" "module_functions"), true,
        ["_checkers", "NoProxy", "_defaultChecker", "_available_by_default"], false) := by decide +kernel
  obtain ⟨⟨v, s⟩, hr, he⟩ := Option.map_eq_some_iff.mp h
  simp only [Prod.mk.injEq, decide_eq_false_iff_not] at he
  obtain ⟨rfl, h1, h2, h3⟩ := he
  exact ⟨_, s, hr, List.any_eq_true.mp h1, h2, h3⟩

/-- **C88.** The tables of the types have these functions where Python looks for them: `tp_dealloc`, `tp_traverse`, `tp_clear`,
the last only in the table of checkers. -/
theorem C88_slots (a b : Option Nat) :
    [3, 20, 21].map (CS.Src.SecurityProxyType_t[·]?) = [some (.ref "proxy_dealloc"), some (.ref "proxy_traverse"), some .zero] ∧
    [3, 20, 21].map (CS.Src.CheckerType_t[·]?) = [some (.ref "Checker_dealloc"), some (.ref "Checker_traverse"), some (.ref "Checker_clear")] ∧
    Gc.clear (.proxy a b) = none ∧ Gc.clear (.checker a b) = some (.checker none none, (Gc.checkerClear a b).2) := by
  refine ⟨by decide, by decide, rfl, ?_⟩
  cases a <;> cases b <;> rfl

/-! A proxy is deallocated. -/
example : (gcRun (fun _ s => (0, s)) CI.Src.proxy_dealloc (obj2 "proxy_object" "proxy_checker" (some 5) (some 6) ())).map (fun r => r.2.log) =
    some [.untrack, .release 6, .release 5, .free] := by decide

end ZS.Props
