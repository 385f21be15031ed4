import Verif.Model.PyRead
import Verif.Props.SourceDecl

/-!
# C79: the constructors of checkers
-/

namespace ZS.Props
open ZS ZS.PyC ZS.Src
variable {β : Type}
set_option maxHeartbeats 1000000

section
variable (X : Ctx Attrs)

/-- The language of `Checker.__init__` when `CombinedChecker.__init__` calls it. -/
abbrev baseLang : Lang Attrs := { declLang X with setattr := osetattr }

theorem obj_glob : (objLang X).glob = dglob := (rfl)
theorem obj_getattr : (objLang X).getattr = lgetattr X own := (rfl)
theorem obj_setattr : (objLang X).setattr = osetattr := (rfl)
theorem obj_method : (objLang X).method = omethod X := (rfl)
theorem obj_call : (objLang X).call = dcall X := (rfl)
theorem obj_same : (objLang X).same = PyC.same := (rfl)
theorem obj_truth : (objLang X).truth = ltruth X := (rfl)
theorem obj_newDict : (objLang X).newDict = lnewDict := (rfl)
theorem obj_raising (x : PV) : raising (objLang X) x = (ltoExn x).getD .typeError := by
  unfold raising; rw [show (objLang X).toExn = ltoExn from rfl]; cases ltoExn x <;> rfl
theorem base_glob : (baseLang X).glob = dglob := (rfl)
theorem base_getattr : (baseLang X).getattr = lgetattr X own := (rfl)
theorem base_setattr : (baseLang X).setattr = osetattr := (rfl)
theorem base_call : (baseLang X).call = dcall X := (rfl)
theorem base_same : (baseLang X).same = PyC.same := (rfl)
theorem base_truth : (baseLang X).truth = ltruth X := (rfl)
theorem base_newDict : (baseLang X).newDict = lnewDict := (rfl)
theorem base_raising (x : PV) : raising (baseLang X) x = (ltoExn x).getD .typeError := by
  unfold raising; rw [show (baseLang X).toExn = ltoExn from rfl]; cases ltoExn x <;> rfl

theorem oset (n : Name) (x : PV) : osetattr (.sym "self") n x = M.modify fun s => { s with app := (n, x) :: s.app } := (rfl)
theorem omethod_init (l : List PV) (kw : List (Name × PV)) :
    omethod X (.sym "Checker") "__init__" l kw = run (baseLang X) Checker.CheckerPy.__init__ l := (rfl)
theorem dcall_isDict (d : Nat) (kw : List (Name × PV)) : dcall X (.sym "isinstance") [.dict d, .sym "dict"] kw = pure (.v (.bool true)) := (rfl)
theorem dcall_notDict (x : Val) (kw : List (Name × PV)) : dcall X (.sym "isinstance") [.v x, .sym "dict"] kw = pure (.v (.bool false)) := (rfl)
theorem dglo_TypeError : (dglob "TypeError" : M Attrs PV) = pure (.sym "TypeError") := (rfl)
theorem dcall_TypeError (x : PV) (kw : List (Name × PV)) : dcall X (.sym "TypeError") [x] kw = pure (.exn .typeError) := (rfl)
theorem same_dict (d : Nat) (x : Val) : PyC.same (.dict d) (.v x) = false := (rfl)
end

/-- The object under construction with further attributes. -/
def given (s : St Attrs) (l : Attrs) : St Attrs := { s with app := l ++ s.app }

/-- **C79** `Checker(get_permissions, set_permissions)` (checker.py:208-230): the object refers to the two dictionaries it was given, as the
model's checker does. -/
theorem C79_Checker_init (X : Ctx Attrs) (g st : Nat) (s : St Attrs) :
    run (objLang X) Checker.CheckerPy.__init__ [.sym "self", .dict g, .dict st] s
      = (.ok (.v .none), given s [("set_permissions", .dict st), ("get_permissions", .dict g)])
    ∧ ∃ c s', newChecker g st s = (.ok c, s') ∧ checkerDicts c = some (g, st) ∧ s'.dicts = s.dicts := by
  refine ⟨fork_run ?_, _, _, rfl, rfl, rfl⟩
  dsteps [Checker.CheckerPy.__init__, obj_glob, obj_getattr, obj_setattr, obj_call, obj_same, obj_truth, oset, dcall_isDict, same_dict]
  rfl

/-- **C79** `Checker(get_permissions)` (checker.py:225-227): with a new empty dictionary for what may be set. -/
theorem C79_Checker_init1 (X : Ctx Attrs) (g : Nat) (s : St Attrs) :
    ∃ c s', (do
        let st ← newDict []
        newChecker g st) s = (.ok c, s') ∧ checkerDicts c = some (g, s.nextId) ∧
      run (objLang X) Checker.CheckerPy.__init__ [.sym "self", .dict g] s
        = (.ok (.v .none), given { s with dicts := s'.dicts, nextId := s.nextId + 1 }
            [("set_permissions", .dict s.nextId), ("get_permissions", .dict g)]) ∧ s'.dicts s.nextId = [] := by
  refine ⟨_, _, rfl, rfl, fork_run ?_, by simp⟩
  dsteps [Checker.CheckerPy.__init__, obj_glob, obj_getattr, obj_setattr, obj_call, obj_same, obj_truth, obj_newDict, oset, dcall_isDict, same_dict]
  rfl

/-- **C79** Anything that is not a dictionary is a TypeError. -/
theorem C79_Checker_init_get (X : Ctx Attrs) (x : Val) (y : PV) (s : St Attrs) :
    run (objLang X) Checker.CheckerPy.__init__ [.sym "self", .v x, y] s = (.err .typeError, s) := by
  refine fork_run ?_
  dsteps [Checker.CheckerPy.__init__, obj_glob, obj_getattr, obj_setattr, obj_call, obj_same, obj_truth, obj_raising, oset, dcall_notDict,
    dglo_TypeError, dcall_TypeError, errK]

/-- **C79** So is a second argument that is neither a dictionary nor `None`. -/
theorem C79_Checker_init_set (X : Ctx Attrs) (g : Nat) (y : Val) (hy : y ≠ .none) (s : St Attrs) :
    ∃ s', run (objLang X) Checker.CheckerPy.__init__ [.sym "self", .dict g, .v y] s = (.err .typeError, s') ∧ s'.dicts = s.dicts := by
  refine ⟨given s [("get_permissions", .dict g)], fork_run ?_, rfl⟩
  dsteps [Checker.CheckerPy.__init__, obj_glob, obj_getattr, obj_setattr, obj_call, obj_same, obj_truth, obj_raising, oset, dcall_notDict,
    dcall_isDict, dglo_TypeError, dcall_TypeError, errK, hy]
  rfl

/-- **C79** `CombinedChecker(checker1, checker2)` (checker.py:555-561): the dictionaries of the first are shared, the second is kept; a
first checker that is none has no such attributes. -/
theorem C79_Combined_init (X : Ctx Attrs) (c1 c2 : Val) (s : St Attrs) :
    (∀ g st, checkerDicts c1 = some (g, st) →
      run (objLang X) Checker.CombinedChecker.__init__ [.sym "self", .v c1, .v c2] s
        = (.ok (.v .none), given s [("_checker2", .v c2), ("set_permissions", .dict st), ("get_permissions", .dict g)])
      ∧ ∃ i s', newCombined c1 c2 s = (.ok (.combined i g st c2), s'))
    ∧ (checkerDicts c1 = none →
      run (objLang X) Checker.CombinedChecker.__init__ [.sym "self", .v c1, .v c2] s = (.err (.attributeError "get_permissions"), s)
      ∧ newCombined c1 c2 s = (.err (.attributeError "get_permissions"), s)) := by
  constructor
  · intro g st hc
    refine ⟨fork_run ?_, s.nextId, { s with nextId := s.nextId + 1 }, ?_⟩
    · dsteps [Checker.CombinedChecker.__init__, Checker.CheckerPy.__init__, obj_glob, obj_getattr, obj_setattr, obj_method, obj_call, obj_same,
        obj_truth, omethod_init, base_glob, base_getattr, base_setattr, base_call, base_same, base_truth, oset, dcall_isDict, same_dict,
        readDict_eq hc, writeDict_eq hc]
      rfl
    · unfold newCombined
      rw [hc]
      rfl
  · intro hc
    refine ⟨fork_run ?_, ?_⟩
    · dsteps [Checker.CombinedChecker.__init__, obj_glob, obj_getattr, obj_setattr, obj_method, obj_call, obj_same,
        obj_truth, readDict, hc, errK]
    · unfold newCombined
      rw [hc]
      rfl

end ZS.Props
