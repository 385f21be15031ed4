import Verif.Model.PyRead
import Verif.Lemmas.PyDeclRun

/-!
# Running the source of the directives step by step

The lemmas of `Lemmas/PyRun.lean` for `metaLang`.
-/

namespace ZS.PyC
open ZS ZS.Src
variable {β : Type}

section
variable (N : Naming) (n : Nat)

theorem ml_glob : (metaLang N n).glob = mglob := by cases n <;> rfl
theorem ml_getattr : (metaLang N n).getattr = mgetattr N := by cases n <;> rfl
theorem ml_setattr : (metaLang N n).setattr = msetattr := by cases n <;> rfl
theorem ml_getitem : (metaLang N n).getitem = mgetitem := by cases n <;> rfl
theorem ml_setitem : (metaLang N n).setitem = lsetitem := by cases n <;> rfl
theorem ml_same : (metaLang N n).same = PyC.same := by cases n <;> rfl
theorem ml_compare : (metaLang N n).compare = mcompare := by cases n <;> rfl
theorem ml_bin : (metaLang N n).bin = mbin := by cases n <;> rfl
theorem ml_truth : (metaLang N n).truth = mtruth := by cases n <;> rfl
theorem ml_iter : (metaLang N n).iter = miter := by cases n <;> rfl
theorem ml_unpack : (metaLang N n).unpack = lunpack := by cases n <;> rfl
theorem ml_toExn : (metaLang N n).toExn = ltoExn := by cases n <;> rfl
theorem ml_newDict : (metaLang N n).newDict = lnewDict := by cases n <;> rfl
theorem ml_raising (x : PV) : raising (metaLang N n) x = (ltoExn x).getD .typeError := by
  unfold raising; rw [ml_toExn]; cases ltoExn x <;> rfl
theorem ml_assign_tuple (ts : List Expr) (xs : List PV) (env : Env) :
    assign (metaLang N n) (.tuple ts) (.tuple xs) env = assignAll (assign1 (metaLang N n)) ts xs env := by cases n <;> rfl
theorem ml_sorted (x : PV) (kw : List (Name × PV)) : (metaLang N n).call (.sym "sorted") [x] kw = msorted x := by cases n <;> rfl
theorem ml_object (kw : List (Name × PV)) : (metaLang N n).call (.sym "object") [] kw = pure (.sym "object()") := by cases n <;> rfl
theorem ml_error (l : List PV) (kw : List (Name × PV)) :
    (metaLang N n).call (.sym "ConfigurationError") l kw = pure (.exn .configurationError) := by cases n <;> rfl
theorem ml_isModule (m : String) (c : Name) (kw : List (Name × PV)) :
    (metaLang N n).call (.sym "isinstance") [.v (.module m), .sym c] kw = pure (.v (.bool true)) := by cases n <;> rfl
theorem ml_isType (m : String) (c : Name) (kw : List (Name × PV)) :
    (metaLang N n).call (.sym "isinstance") [.v (.type m), .sym c] kw = pure (.v (.bool false)) := by cases n <;> rfl
theorem ml_dotted (l : List PV) (kw : List (Name × PV)) :
    (metaLang N (n + 1)).call (.sym "dottedName") l kw = run (metaLang N n) Metaconfigure.dottedName l := (rfl)
theorem ml_names (l : List PV) (kw : List (Name × PV)) :
    (metaLang N (n + 1)).call (.sym "_names") l kw = run (metaLang N n) Metaconfigure._names l := (rfl)
theorem ml_action (kw : List (Name × PV)) :
    (metaLang N n).method (.sym "_context") "action" [] kw = unit (M.modify fun s => emit s [kw]) := by cases n <;> rfl
theorem ml_provided (d : Descr) (kw : List (Name × PV)) :
    (metaLang N n).method (.sym "IField") "providedBy" [.descr d] kw = pure (.v (.bool (decide (d ≠ .notField)))) := by
  cases n <;> rfl
theorem ml_getName (i : Iface) (kw : List (Name × PV)) :
    (metaLang N n).method (.iface i) "getName" [] kw = pure (.v (.str 0 (N.ifaceName i))) := by cases n <;> rfl
theorem ml_descriptions (i : Iface) (x : PV) (kw : List (Name × PV)) :
    (metaLang N n).method (.iface i) "namesAndDescriptions" [x] kw
      = pure (.list (i.map fun p => .tuple [nameV p.1, .descr p.2])) := by cases n <;> rfl
theorem ml_self (m : Name) (l : List PV) (kw : List (Name × PV)) :
    (metaLang N (n + 1)).method (.sym "self") m l kw
      = runFn (metaLang N n) (fnOf Metaconfigure.ClassDirective.methods m) (.sym "self" :: l) stuck := (rfl)

theorem ml_mimic (l : List PV) (kw : List (Name × PV)) : (metaLang N (n + 1)).method (.sym "self") "_ClassDirective__mimic" l kw
    = run (metaLang N n) Metaconfigure.ClassDirective.__mimic (.sym "self" :: l) := (rfl)
theorem ml_byInterface (l : List PV) (kw : List (Name × PV)) : (metaLang N (n + 1)).method (.sym "self") "_ClassDirective__protectByInterface" l kw
    = run (metaLang N n) Metaconfigure.ClassDirective.__protectByInterface (.sym "self" :: l) := (rfl)
theorem ml_name (l : List PV) (kw : List (Name × PV)) : (metaLang N (n + 1)).method (.sym "self") "_ClassDirective__protectName" l kw
    = run (metaLang N n) Metaconfigure.ClassDirective.__protectName (.sym "self" :: l) := (rfl)
theorem ml_protectNames (l : List PV) (kw : List (Name × PV)) : (metaLang N (n + 1)).method (.sym "self") "_ClassDirective__protectNames" l kw
    = run (metaLang N n) Metaconfigure.ClassDirective.__protectNames (.sym "self" :: l) := (rfl)
theorem ml_setAttributes (l : List PV) (kw : List (Name × PV)) : (metaLang N (n + 1)).method (.sym "self") "_ClassDirective__protectSetAttributes" l kw
    = run (metaLang N n) Metaconfigure.ClassDirective.__protectSetAttributes (.sym "self" :: l) := (rfl)
theorem ml_setSchema (l : List PV) (kw : List (Name × PV)) : (metaLang N (n + 1)).method (.sym "self") "_ClassDirective__protectSetSchema" l kw
    = run (metaLang N n) Metaconfigure.ClassDirective.__protectSetSchema (.sym "self" :: l) := (rfl)
theorem ml_require (l : List PV) (kw : List (Name × PV)) : (metaLang N (n + 1)).method (.sym "self") "require" l kw
    = run (metaLang N n) Metaconfigure.ClassDirective.require (.sym "self" :: l) := (rfl)

theorem mglo_Public : mglob "PublicPermission" = pure (.v publicPermission) := (rfl)
theorem mglo_classImplements : mglob "classImplements" = pure (.sym "classImplements") := (rfl)
theorem mglo_provideInterface : mglob "provideInterface" = pure (.sym "provideInterface") := (rfl)
theorem mglo_protectLikeUnto : mglob "protectLikeUnto" = pure (.sym "protectLikeUnto") := (rfl)
theorem mglo_protectName : mglob "protectName" = pure (.sym "protectName") := (rfl)
theorem mglo_protectSetAttribute : mglob "protectSetAttribute" = pure (.sym "protectSetAttribute") := (rfl)
theorem mglo_protectModule : mglob "protectModule" = pure (.sym "protectModule") := (rfl)
theorem mglo_isinstance : mglob "isinstance" = pure (.sym "isinstance") := (rfl)
theorem mglo_sorted : mglob "sorted" = pure (.sym "sorted") := (rfl)
theorem mglo_object : mglob "object" = pure (.sym "object") := (rfl)
theorem mglo_dottedName : mglob "dottedName" = pure (.sym "dottedName") := (rfl)
theorem mglo__names : mglob "_names" = pure (.sym "_names") := (rfl)
theorem mglo_ConfigurationError : mglob "ConfigurationError" = pure (.sym "ConfigurationError") := (rfl)
theorem mglo_ModuleType : mglob "ModuleType" = pure (.sym "ModuleType") := (rfl)
theorem mglo_IField : mglob "IField" = pure (.sym "IField") := (rfl)

theorem mget_self (m : Name) : mgetattr N (.sym "self") m = ownAttr m := (rfl)
theorem mget_module : mgetattr N (.sym "_context") "module" = pure (.v N.module) := (rfl)
theorem mget_clsModule (t : String) : mgetattr N (.v (.type t)) "__module__" = pure (.v (.str 0 (N.clsModule t))) := (rfl)
theorem mget_clsName (t : String) : mgetattr N (.v (.type t)) "__name__" = pure (.v (.str 0 (N.clsName t))) := (rfl)
theorem mget_modModule (t : String) : mgetattr N (.v (.module t)) "__module__" = M.throw (.attributeError "__module__") := (rfl)
theorem mget_ifaceModule (i : Iface) : mgetattr N (.iface i) "__module__" = pure (.v (.str 0 (N.ifaceModule i))) := (rfl)
theorem mget_readonly (r : Bool) : mgetattr N (.descr (.field r)) "readonly" = pure (.v (.bool r)) := (rfl)
theorem mset_self (m : Name) (x : PV) : msetattr (.sym "self") m x =
    M.modify fun s => { s with app := { s.app with attrs := (m, x) :: s.app.attrs } } := (rfl)
theorem mtruth_bool (b : Bool) : mtruth (.v (.bool b)) = pure b := (rfl)
theorem mtruth_none : mtruth (.v .none) = pure false := (rfl)
theorem mtruth_str (a : Nat) (t : String) : mtruth (.v (.str a t)) = pure (!(t == "")) := (rfl)
theorem mtruth_type (t : String) : mtruth (.v (.type t)) = pure true := (rfl)
theorem mtruth_module (t : String) : mtruth (.v (.module t)) = pure true := (rfl)
theorem mtruth_iface (i : Iface) : mtruth (.iface i) = pure true := (rfl)
theorem mtruth_list (l : List PV) : mtruth (.list l) = pure (!l.isEmpty) := (rfl)
theorem mtruth_tuple (l : List PV) : mtruth (.tuple l) = pure (!l.isEmpty) := (rfl)
theorem miter_tuple (l : List PV) : miter (.tuple l) = pure l := (rfl)
theorem miter_list (l : List PV) : miter (.list l) = pure l := (rfl)
theorem miter_iface (i : Iface) : miter (.iface i) = pure (i.keys.map nameV) := (rfl)
theorem miter_none : miter (.v .none) = M.throw .typeError := (rfl)
theorem madd_str (a b : Nat) (x y : String) : mbin "+" (.v (.str a x)) (.v (.str b y)) = pure (.v (.str 0 (x ++ y))) := (rfl)
theorem madd_list (x y : List PV) : mbin "+" (.list x) (.list y) = pure (.list (x ++ y)) := (rfl)
theorem mnotIn (a : Nat) (m : String) (d : Nat) : mcompare .notIn (.v (.str a m)) (.dict d) = (do
    let s ← M.get
    pure (.v (.bool (!(s.dicts d).mem m)))) := (rfl)
theorem mitem (i : Iface) (a : Nat) (m : String) : mgetitem (.iface i) (.v (.str a m)) = (match PyDict.get? i m with
    | some d => pure (.descr d)
    | none => M.throw .keyError) := (rfl)
theorem ev_call_object {A : Type} {L : Lang A} {env : Env} {k : PV → St A → Res β × St A} {h : Exn → St A → Res β × St A} {s : St A} :
    fork (eval L (.call (.glo "object") []) env) k h s =
    fork (L.glob "object") (fun f => fork (evalArgs L [] env) (fun a => fork (L.call f a.1 a.2) k h) h) h s :=
  ev_callG "object" [] (rfl)
end

theorem emit_emit (s : St Reading) (a b : List Raw) : emit (emit s a) b = emit s (a ++ b) := by
  unfold emit; simp only [List.append_assoc]
theorem emit_nil (s : St Reading) : emit s [] = s := by unfold emit; simp only [List.append_nil]
theorem emit_attrs (s : St Reading) (a : List Raw) : (emit s a).app.attrs = s.app.attrs := (rfl)

/-- `pysteps` for `metaLang`. -/
syntax "msteps" ("[" Lean.Parser.Tactic.simpLemma,* "]")? : tactic
macro_rules
  | `(tactic| msteps) => `(tactic| msteps [])
  | `(tactic| msteps [$ts,*]) => `(tactic|
    pysteps [↓ea_dict, ↓ea_list, ↓ex_aug, ↓ev_call_object, ml_glob, ml_getattr, ml_setattr, ml_getitem, ml_setitem, ml_same, ml_compare,
      ml_bin, ml_truth, ml_iter, ml_unpack, ml_toExn, ml_newDict, ml_raising, ml_assign_tuple, ml_sorted, ml_object, ml_error,
      ml_isModule, ml_isType, ml_action, ml_provided, ml_getName, ml_descriptions,
      mglo_Public, mglo_classImplements, mglo_provideInterface, mglo_protectLikeUnto, mglo_protectName, mglo_protectSetAttribute,
      mglo_protectModule, mglo_isinstance, mglo_sorted, mglo_object, mglo_dottedName, mglo__names, mglo_ConfigurationError,
      mglo_ModuleType, mglo_IField, mget_self, mget_module, mget_clsModule, mget_clsName, mget_modModule, mget_ifaceModule,
      mget_readonly, mset_self, mtruth_bool, mtruth_none, mtruth_str, mtruth_type, mtruth_module, mtruth_iface, mtruth_list,
      mtruth_tuple, miter_tuple, miter_list, miter_iface, miter_none, madd_str, madd_list, mnotIn, mitem, emit_emit, emit_nil,
      emit_attrs, $ts,*])

end ZS.PyC
