import Verif.Model.PyDecl
import Verif.Lemmas.PyRun

/-!
# Running the source of the declarations step by step

The lemmas of `Lemmas/PyRun.lean` for `declLang`.
-/

namespace ZS.PyC
open ZS
variable {A β : Type}

section
variable {L : Lang A} {env : Env} {h : Exn → St A → Res β × St A} {s : St A} {ka : Args → St A → Res β × St A}
  {kf : Flow → St A → Res β × St A} {cur : Option Exn}
theorem ea_dict (l : List Expr) (r : List Expr) : fork (evalArgs L (.dict l :: r) env) ka h s =
    fork (eval L (.dict l) env) (fun x => fork (evalArgs L r env) (fun a => ka (x :: a.1, a.2)) h) h s := ea_cons _ r rfl
theorem ea_list (l : List Expr) (r : List Expr) : fork (evalArgs L (.list l :: r) env) ka h s =
    fork (eval L (.list l) env) (fun x => fork (evalArgs L r env) (fun a => ka (x :: a.1, a.2)) h) h s := ea_cons _ r rfl
theorem ex_aug (op : String) (t e : Expr) : fork (exec L (.aug op t e) cur env) kf h s =
    fork (eval L t env) (fun a => fork (eval L e env) (fun b => fork (L.bin op a b) (fun x =>
      fork (assign L t x env) (fun env' => kf (.next env')) (fun e => kf (.exc e env))) (fun e => kf (.exc e env)))
      (fun e => kf (.exc e env))) (fun e => kf (.exc e env)) s := by
  rw [exec, fork_doing, fork_bind]; congr 1; funext x s; rw [fork_bind]; congr 1; funext x s; congr 1; funext x s
  rw [fork_doing]; rfl
theorem es_append (a b : List Stmt) : ∀ (env : Env) (s : St A), fork (execs L (a ++ b) cur env) kf h s =
    fork (execs L a cur env) (fun f => fork (afterStmt L b cur f) kf h) h s := by
  induction a with
  | nil => intro env s; rw [List.nil_append, es_nil, as_next]
  | cons x r ih =>
    intro env s
    rw [List.cons_append, es_cons, es_cons]
    congr 1
    funext f s
    cases f with
    | next env' => rw [as_next, as_next]; exact ih env' s
    | _ => rfl
end

section
variable (X : Ctx A)

theorem decl_glob : (declLang X).glob = dglob := (rfl)
theorem decl_getattr : (declLang X).getattr = lgetattr X own := (rfl)
theorem decl_getitem : (declLang X).getitem = dgetitem := (rfl)
theorem decl_setitem : (declLang X).setitem = lsetitem := (rfl)
theorem decl_delitem : (declLang X).delitem = ldelitem := (rfl)
theorem decl_method : (declLang X).method = dmethod X := (rfl)
theorem decl_call : (declLang X).call = dcall X := (rfl)
theorem decl_same : (declLang X).same = PyC.same := (rfl)
theorem decl_compare : (declLang X).compare = dcompare X := (rfl)
theorem decl_truth : (declLang X).truth = ltruth X := (rfl)
theorem decl_iter : (declLang X).iter = diter := (rfl)
theorem decl_unpack : (declLang X).unpack = lunpack := (rfl)
theorem decl_toExn : (declLang X).toExn = ltoExn := (rfl)
theorem decl_newDict : (declLang X).newDict = lnewDict := (rfl)
theorem decl_raising (x : PV) : raising (declLang X) x = (ltoExn x).getD .typeError := by
  unfold raising; rw [decl_toExn]; cases ltoExn x <;> rfl
theorem decl_assign_tuple (ts : List Expr) (xs : List PV) (env : Env) :
    assign (declLang X) (.tuple ts) (.tuple xs) env = assignAll (assign1 (declLang X)) ts xs env := (rfl)

theorem dglo_zope_Public : (dglob "zope_Public" : M A PV) = pure (.v publicPermission) := (rfl)
theorem dglo_PublicPermission : (dglob "PublicPermission" : M A PV) = pure (.v publicPermission) := (rfl)
theorem dglo_instances : (dglob "getCheckerForInstancesOf" : M A PV) = pure (.sym "getCheckerForInstancesOf") := (rfl)
theorem dglo_module : (dglob "moduleChecker" : M A PV) = pure (.sym "moduleChecker") := (rfl)
theorem dglo_define : (dglob "defineChecker" : M A PV) = pure (.sym "defineChecker") := (rfl)
theorem dglo_Checker : (dglob "Checker" : M A PV) = pure (.sym "Checker") := (rfl)
theorem dglo_CheckerPublic : (dglob "CheckerPublic" : M A PV) = pure (.v publicV) := (rfl)
theorem dglo_NamesChecker : (dglob "NamesChecker" : M A PV) = pure (.sym "NamesChecker") := (rfl)
theorem dglo_DuplicationError : (dglob "DuplicationError" : M A PV) = pure (.sym "DuplicationError") := (rfl)
theorem dglo_isinstance : (dglob "isinstance" : M A PV) = pure (.sym "isinstance") := (rfl)
theorem dglo_tuple : (dglob "tuple" : M A PV) = pure (.sym "tuple") := (rfl)
theorem dglo_dict : (dglob "dict" : M A PV) = pure (.sym "dict") := (rfl)
theorem dglo_IInterface : (dglob "IInterface" : M A PV) = pure (.sym "IInterface") := (rfl)
theorem dglo__checkers : (dglob "_checkers" : M A PV) = pure (.sym "_checkers") := (rfl)
theorem dglo__default_checkers : (dglob "_default_checkers" : M A PV) = pure (.sym "_default_checkers") := (rfl)
theorem dglo_BasicTypes : (dglob "BasicTypes" : M A PV) = pure (.sym "BasicTypes") := (rfl)
theorem dglo_NotImplementedError : (dglob "NotImplementedError" : M A PV) = pure (.sym "NotImplementedError") := (rfl)

theorem dcall_instances (t : Val) (kw : List (Name × PV)) :
    dcall X (.sym "getCheckerForInstancesOf") [.v t] kw = lookUp t := (rfl)
theorem dcall_module (t : Val) (kw : List (Name × PV)) :
    dcall X (.sym "moduleChecker") [.v t] kw = lookUp t := (rfl)
theorem dcall_define (t c : Val) (kw : List (Name × PV)) :
    dcall X (.sym "defineChecker") [.v t, .v c] kw = unit (defineChecker t c) := (rfl)
theorem dcall_Checker (g st : Nat) (kw : List (Name × PV)) :
    dcall X (.sym "Checker") [.dict g, .dict st] kw = val (newChecker g st) := (rfl)
theorem dcall_Checker1 (g : Nat) (kw : List (Name × PV)) :
    dcall X (.sym "Checker") [.dict g] kw = val (do
      let st ← newDict []
      newChecker g st) := (rfl)
theorem dcall_NamesChecker (l : List PV) (p : Val) (kw : List (Name × PV)) :
    dcall X (.sym "NamesChecker") [.list l, .v p] kw = callNames (namesOf l) p (kwVals kw) := (rfl)
theorem dcall_tuple (x : PV) (kw : List (Name × PV)) :
    dcall X (.sym "isinstance") [x, .sym "tuple"] kw = pure (.v (.bool (isTuple x))) := (rfl)
theorem dcall_Duplication (a : Nat) (n : Name) (kw : List (Name × PV)) :
    dcall X (.sym "DuplicationError") [.v (.str a n)] kw = pure (.exn (.duplicationName n)) := (rfl)
theorem tuple_tuple (l : List PV) : isTuple (.tuple l) = true := (rfl)
theorem tuple_kwds (l : List (Name × PV)) : isTuple (.kwds l) = false := (rfl)

theorem ddo_set (b : Name) (m : Name) (l : List PV) (kw : List (Name × PV)) : dmethod X (.sym "dict") m (.sym b :: l) kw = dictMethod m (.sym b :: l) := (rfl)
theorem dict_setT (b : Name) (t : String) (x : Val) : (dictMethod "__setitem__" [.sym b, .v (.type t), .v x] : M A PV) =
    unit (M.modify fun s => { s with basic := s.basic.set (.ty t) x }) := (rfl)
theorem dict_setM (b : Name) (t : String) (x : Val) : (dictMethod "__setitem__" [.sym b, .v (.module t), .v x] : M A PV) =
    unit (M.modify fun s => { s with basic := s.basic.set (.mod t) x }) := (rfl)
theorem dict_delT (b : Name) (t : String) : (dictMethod "__delitem__" [.sym b, .v (.type t)] : M A PV) = (do
    let s ← M.get
    if s.basic.mem (.ty t) then unit (M.modify fun s => { s with basic := s.basic.del (.ty t) }) else M.throw .keyError) := (rfl)
theorem dict_delM (b : Name) (t : String) : (dictMethod "__delitem__" [.sym b, .v (.module t)] : M A PV) = (do
    let s ← M.get
    if s.basic.mem (.mod t) then unit (M.modify fun s => { s with basic := s.basic.del (.mod t) }) else M.throw .keyError) := (rfl)
theorem dict_update (b : Name) (d : PyDict Key Val) : (dictMethod "update" [.sym b, .keydict d] : M A PV) =
    unit (M.modify fun s => { s with basic := s.basic.update d }) := (rfl)
theorem ddo_clear (kw : List (Name × PV)) : dmethod X (.sym "_checkers") "clear" [] kw = unit (M.modify fun s => { s with reg := [] }) := (rfl)
theorem ddo_update (t : PV) (kw : List (Name × PV)) : dmethod X (.sym "_checkers") "update" [t] kw = regUpdate t := (rfl)
theorem update_keydict (d : PyDict Key Val) : (regUpdate (.keydict d) : M A PV) =
    unit (M.modify fun s => { s with reg := s.reg.update d }) := (rfl)
theorem update_defaults : (regUpdate (.sym "_default_checkers") : M A PV) = (do
    let s ← M.get
    unit (M.modify fun s' => { s' with reg := s'.reg.update s.defaults })) := (rfl)
theorem update_basic : (regUpdate (.sym "BasicTypes") : M A PV) = (do
    let s ← M.get
    unit (M.modify fun s' => { s' with reg := s'.reg.update s.basic })) := (rfl)
theorem ddo_providedIface (i : Iface) (kw : List (Name × PV)) :
    dmethod X (.sym "IInterface") "providedBy" [.iface i] kw = pure (.v (.bool true)) := (rfl)
theorem ddo_providedList (l : List PV) (kw : List (Name × PV)) :
    dmethod X (.sym "IInterface") "providedBy" [.list l] kw = pure (.v (.bool false)) := (rfl)
theorem ddo_names (i : Iface) (l : List PV) (kw : List (Name × PV)) :
    dmethod X (.iface i) "names" l kw = pure (.list (i.keys.map nameV)) := (rfl)
theorem ddo_items (d : List (Name × PV)) (l : List PV) (kw : List (Name × PV)) :
    dmethod X (.kwds d) "items" l kw = pure (.list (itemsOf d)) := (rfl)
theorem ddo_get2 (d a : Nat) (n : Name) (x : Val) (kw : List (Name × PV)) :
    dmethod X (.dict d) "get" [.v (.str a n), .v x] kw = (do
    let s ← M.get
    pure (.v (orElse ((s.dicts d).get? n) x))) := (rfl)
theorem ddo_dictUpdate (d : Nat) (l kw : List (Name × PV)) :
    dmethod X (.dict d) "update" [.kwds l] kw = (match kwVals l with
      | some e => (do
        M.modify fun s => { s with dicts := fun j => if j = d then (s.dicts d).update e else s.dicts j }
        pure (.v .none))
      | none => stuck) := (rfl)
theorem ditem (d a : Nat) (n : Name) : (dgetitem (.dict d) (.v (.str a n)) : M A PV) = (do
    let s ← M.get
    match (s.dicts d).get? n with
    | some p => pure (.v p)
    | none => M.throw .keyError) := (rfl)
theorem diter_dict (d : Nat) : (diter (.dict d) : M A (List PV)) = (do
    let s ← M.get
    pure ((s.dicts d).keys.map nameV)) := (rfl)
theorem diter_list (l : List PV) : (diter (.list l) : M A (List PV)) = pure l := (rfl)
theorem diter_tuple (l : List PV) : (diter (.tuple l) : M A (List PV)) = pure l := (rfl)
theorem deq (p : Val) (a : Nat) (t : String) : dcompare X .eq (.v p) (.v (.str a t)) = pure (.v (.bool (isText p t))) := (rfl)
theorem deq_public (p : Val) : dcompare X .eq (.v p) (.v publicPermission) = pure (.v (.bool (isText p zopePublic))) := (rfl)
theorem raise_class : ltoExn (.sym "NotImplementedError") = some .notImplementedError := (rfl)

end

theorem fork_newDict (d : PyDict Name Val) (k : Nat → St A → Res β × St A) (h : Exn → St A → Res β × St A) (s : St A) :
    fork (newDict d) k h s =
      k s.nextId { s with dicts := fun j => if j = s.nextId then d else s.dicts j, nextId := s.nextId + 1 } := (rfl)
theorem fork_newChecker (g st : Nat) (k : Val → St A → Res β × St A) (h : Exn → St A → Res β × St A) (s : St A) :
    fork (newChecker g st) k h s = k (.checker s.nextId g st) { s with nextId := s.nextId + 1 } := (rfl)

/-- `pysteps` for `declLang`. -/
syntax "dsteps" ("[" Lean.Parser.Tactic.simpLemma,* "]")? : tactic
macro_rules
  | `(tactic| dsteps) => `(tactic| dsteps [])
  | `(tactic| dsteps [$ts,*]) => `(tactic|
    pysteps [↓ea_dict, ↓ea_list, ↓ex_aug, ↓fork_newDict, ↓fork_newChecker, decl_glob, decl_getattr, decl_getitem, decl_setitem, decl_delitem, decl_method, decl_call, decl_same, decl_compare,
      decl_truth, decl_iter, decl_unpack, decl_toExn, decl_newDict, decl_raising, decl_assign_tuple,
      dglo_zope_Public, dglo_PublicPermission, dglo_instances, dglo_module, dglo_define, dglo_Checker, dglo_CheckerPublic,
      dglo_NamesChecker, dglo_DuplicationError, dglo_isinstance, dglo_tuple, dglo_dict, dglo_IInterface, dglo__checkers,
      dglo__default_checkers, dglo_BasicTypes, dglo_NotImplementedError, dcall_instances, dcall_module, dcall_define,
      dcall_Checker, dcall_Checker1, dcall_NamesChecker, dcall_tuple, dcall_Duplication, tuple_tuple, tuple_kwds, ddo_set,
      dict_setT, dict_setM, dict_delT, dict_delM, dict_update, ddo_clear, ddo_update, update_keydict, update_defaults,
      update_basic, ddo_providedIface, ddo_providedList, ddo_names, ddo_items, ddo_get2, ddo_dictUpdate, ditem,
      diter_dict, diter_list, diter_tuple, deq, deq_public, raise_class, $ts,*])

/-- `pyforks` for `declLang`. -/
syntax "dforks" ("[" Lean.Parser.Tactic.simpLemma,* "]")? : tactic
macro_rules
  | `(tactic| dforks) => `(tactic| dforks [])
  | `(tactic| dforks [$ts,*]) => `(tactic|
    (dsteps [$ts,*]
     repeat' (refine fork_ext (fun _ _ _ => ?_) (fun _ _ _ => ?_) <;> try dsteps [$ts,*])))

end ZS.PyC
