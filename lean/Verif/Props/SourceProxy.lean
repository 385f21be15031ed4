import Verif.Source.Proxy
import Verif.Lemmas.PyRun

/-!
# C78: the source of proxy.py does what the model says
-/

namespace ZS.Props
open ZS ZS.PyC ZS.Src
variable {A : Type}
set_option maxHeartbeats 1000000

/-- The call is made from a frame whose variable `self` is `x`. -/
def calledFrom (x : PV) : Opts := ⟨.user, x⟩


/-- `getCheckerPy`. -/
theorem C78_getCheckerPy (X : Ctx A) (id : Nat) (w c : Val) :
    run (lang X user) Proxy.getCheckerPy [.v (.proxy id w c)] = (do
      let s ← M.get
      pure (.v (proxyChecker X s id c))) := by
  apply ext_fork
  intro s
  pysteps [Proxy.getCheckerPy]

/-- `ProxyPy.__getattr__`. -/
theorem C78_getattr (X : Ctx A) (id : Nat) (w c : Val) (n : Name) (a : Nat) :
    run (lang X user) Proxy.ProxyPy.__getattr__ [.v (.proxy id w c), .v (.str a n)] =
      val (getattrHookPy X (hasattrX X) id w c n) := by
  apply ext_fork
  intro s
  pyforks [Proxy.ProxyPy.__getattr__, getattrHookPy]

theorem getattribute_wrapped (X : Ctx A) (x : PV) (id : Nat) (w c : Val) (a : Nat) (s : St A) :
    fork (run (lang X (calledFrom x)) Proxy.ProxyPy.__getattribute__ [.v (.proxy id w c), .v (.str a "_wrapped")]) okK errK s =
      fork (val (getattributePy X (hasattrX X) id w c "_wrapped" (PyC.same x (.v (.proxy id w c))))) okK errK s := by
  unfold getattributePy getattributeCheckPy calledFrom
  cases hx : PyC.same x (.v (.proxy id w c)) <;> pysteps [Proxy.ProxyPy.__getattribute__, hx, true_or, and_true, and_false]

theorem getattribute_checker (X : Ctx A) (x : PV) (id : Nat) (w c : Val) (a : Nat) (s : St A) :
    fork (run (lang X (calledFrom x)) Proxy.ProxyPy.__getattribute__ [.v (.proxy id w c), .v (.str a "_checker")]) okK errK s =
      fork (val (getattributePy X (hasattrX X) id w c "_checker" (PyC.same x (.v (.proxy id w c))))) okK errK s := by
  unfold getattributePy getattributeCheckPy calledFrom
  cases hx : PyC.same x (.v (.proxy id w c)) <;> pysteps [Proxy.ProxyPy.__getattribute__, hx, or_true, and_true, and_false]

theorem unchecked_eq (n : Name) : decide (n ∈ pyUncheckedAttrs) = (decide (n = "__cmp__") || (decide (n = "__hash__") || (decide (n = "__bool__") ||
      (decide (n = "__lt__") || (decide (n = "__le__") || (decide (n = "__eq__") || (decide (n = "__ne__") ||
      (decide (n = "__ge__") || decide (n = "__gt__"))))))))) := by
  simp [pyUncheckedAttrs]

theorem getattribute_unchecked (X : Ctx A) (x : PV) (id : Nat) (w c : Val) (n : Name) (a : Nat) (s : St A) (hn : n ∈ pyUncheckedAttrs) :
    fork (run (lang X (calledFrom x)) Proxy.ProxyPy.__getattribute__ [.v (.proxy id w c), .v (.str a n)]) okK errK s =
      fork (val (getattributePy X (hasattrX X) id w c n (PyC.same x (.v (.proxy id w c))))) okK errK s := by
  have h0 : ∀ t, t ∉ pyUncheckedAttrs → n ≠ t := fun t ht e => ht (e ▸ hn)
  have h1 := h0 "_wrapped" (by decide)
  have h2 := h0 "_checker" (by decide)
  have h3 := h0 "__reduce__" (by decide)
  have h4 := h0 "__reduce_ex__" (by decide)
  have h5 := h0 "__module__" (by decide)
  have hu := unchecked_eq n
  rw [decide_eq_true hn] at hu
  have hs := sup_other (X := X) id w c a n h1 h2
  unfold getattributePy getattributeCheckPy calledFrom
  pyforks [Proxy.ProxyPy.__getattribute__, h1, h2, h3, h4, h5, hn, ← hu, or_self, false_and, hs]

theorem getattribute_checked (X : Ctx A) (x : PV) (id : Nat) (w c : Val) (n : Name) (a : Nat) (s : St A) (hn : n ∉ pyUncheckedAttrs)
    (h1 : n ≠ "_wrapped") (h2 : n ≠ "_checker") :
    fork (run (lang X (calledFrom x)) Proxy.ProxyPy.__getattribute__ [.v (.proxy id w c), .v (.str a n)]) okK errK s =
      fork (val (getattributePy X (hasattrX X) id w c n (PyC.same x (.v (.proxy id w c))))) okK errK s := by
  have hu := unchecked_eq n
  rw [decide_eq_false hn] at hu
  have hs := sup_other (X := X) id w c a n h1 h2
  unfold getattributePy getattributeCheckPy calledFrom
  by_cases h3 : n = "__reduce__"
  · have h3' := eq_true h3
    clear h3
    pyforks [Proxy.ProxyPy.__getattribute__, h1, h2, ← hu, h3', hn, or_self, false_and, or_true, true_or]
  by_cases h4 : n = "__reduce_ex__"
  · have h4' := eq_true h4
    clear h4
    pyforks [Proxy.ProxyPy.__getattribute__, h1, h2, h3, ← hu, h4', hn, or_self, false_and, or_true, true_or]
  by_cases h5 : n = "__module__"
  · have h5' := eq_true h5
    clear h5
    pyforks [Proxy.ProxyPy.__getattribute__, h1, h2, h3, h4, ← hu, h5', hn, or_self, false_and, or_true, true_or]
  pyforks [Proxy.ProxyPy.__getattribute__, h1, h2, h3, h4, h5, hn, ← hu, or_self, false_and, hs]

/-- `ProxyPy.__getattribute__`, called from a frame whose `self` is `x`. -/
theorem C78_getattribute (X : Ctx A) (x : PV) (id : Nat) (w c : Val) (n : Name) (a : Nat) :
    run (lang X (calledFrom x)) Proxy.ProxyPy.__getattribute__ [.v (.proxy id w c), .v (.str a n)] =
      val (getattributePy X (hasattrX X) id w c n (PyC.same x (.v (.proxy id w c)))) := by
  apply ext_fork
  intro s
  by_cases h1 : n = "_wrapped"
  · subst h1
    exact getattribute_wrapped X x id w c a s
  by_cases h2 : n = "_checker"
  · subst h2
    exact getattribute_checker X x id w c a s
  by_cases hn : n ∈ pyUncheckedAttrs
  · exact getattribute_unchecked X x id w c n a s hn
  · exact getattribute_checked X x id w c n a s hn h1 h2

/-- `ProxyPy.__setattr__`. -/
theorem C78_setattr (X : Ctx A) (id : Nat) (w c : Val) (n : Name) (a : Nat) (x : Val) :
    run (lang X user) Proxy.ProxyPy.__setattr__ [.v (.proxy id w c), .v (.str a n), .v x] = val (setattrPy X id w c n x) := by
  apply ext_fork
  intro s
  unfold setattrPy
  by_cases h1 : n = "_wrapped"
  · subst h1
    pysteps [Proxy.ProxyPy.__setattr__]
  · by_cases h2 : n = "_checker"
    · subst h2
      pysteps [Proxy.ProxyPy.__setattr__]
    · pyforks [Proxy.ProxyPy.__setattr__, h1, h2, guard]

/-- `ProxyPy.__delattr__`. -/
theorem C78_delattr (X : Ctx A) (id : Nat) (w c : Val) (n : Name) (a : Nat) :
    run (lang X user) Proxy.ProxyPy.__delattr__ [.v (.proxy id w c), .v (.str a n)] = val (delattrPy X id w c n) := by
  apply ext_fork
  intro s
  unfold delattrPy
  by_cases h1 : n = "_wrapped"
  · subst h1
    pysteps [Proxy.ProxyPy.__delattr__, true_or]
  · by_cases h2 : n = "_checker"
    · subst h2
      pysteps [Proxy.ProxyPy.__delattr__, or_true]
    · pyforks [Proxy.ProxyPy.__delattr__, h1, h2, guard, or_self]

/-- The six comparison methods. -/
def compareFn : CmpName → Fn
  | .lt => Proxy.ProxyPy.__lt__
  | .le => Proxy.ProxyPy.__le__
  | .eq => Proxy.ProxyPy.__eq__
  | .ne => Proxy.ProxyPy.__ne__
  | .ge => Proxy.ProxyPy.__ge__
  | .gt => Proxy.ProxyPy.__gt__

/-- The comparisons. -/
theorem C78_compare (X : Ctx A) (id : Nat) (w c o : Val) (b : CmpName) :
    run (lang X ⟨.raw, .v .none⟩) (compareFn b) [.v (.proxy id w c), .v o] = val (popPy X id w c (.compare b o)) := by
  apply ext_fork
  intro s
  unfold popPy
  cases b <;> pyforks [compareFn, Proxy.ProxyPy.__lt__, Proxy.ProxyPy.__le__, Proxy.ProxyPy.__eq__, Proxy.ProxyPy.__ne__,
    Proxy.ProxyPy.__ge__, Proxy.ProxyPy.__gt__]

/-- `ProxyPy.__hash__`. -/
theorem C78_hash (X : Ctx A) (id : Nat) (w c : Val) :
    run (lang X user) Proxy.ProxyPy.__hash__ [.v (.proxy id w c)] = val (popPy X id w c .hash) := by
  apply ext_fork
  intro s
  unfold popPy
  pyforks [Proxy.ProxyPy.__hash__]

/-- `ProxyPy.__bool__`. -/
theorem C78_bool (X : Ctx A) (id : Nat) (w c : Val) :
    run (lang X user) Proxy.ProxyPy.__bool__ [.v (.proxy id w c)] = val (popPy X id w c .bool) := by
  apply ext_fork
  intro s
  unfold popPy
  pyforks [Proxy.ProxyPy.__bool__]

/-- `ProxyPy.__length_hint__`. -/
theorem C78_length_hint (X : Ctx A) (id : Nat) (w c : Val) :
    run (lang X user) Proxy.ProxyPy.__length_hint__ [.v (.proxy id w c)] = val (popPy X id w c .lengthHint) := by
  apply ext_fork
  intro s
  unfold popPy lengthHintPy
  pysteps [Proxy.ProxyPy.__length_hint__]
  refine fork_ext (fun v s' hv => ?_) (fun e s' he => ?_)
  · pyforks [user]
  · cases he' : e.isAttr <;> pysteps [he']

/-- `str()` and `repr()` insist on a string. -/
def asText (X : Ctx A) (x : M A PV) : M A PV := do
  let r ← x
  match r with
  | .v v => val (asStr X.W v)
  | _ => stuck

/-- `ProxyPy.__str__`. -/
theorem C78_str (X : Ctx A) (id : Nat) (w c : Val) :
    asText X (run (lang X own) Proxy.ProxyPy.__str__ [.v (.proxy id w c)]) = val (popPy X id w c .str) := by
  apply ext_fork
  intro s
  unfold popPy strPy defaultReprPy asText
  pysteps [Proxy.ProxyPy.__str__]
  refine fork_ext (fun v s' hv => ?_) (fun e s' he => ?_)
  · pyforks
  · by_cases h : e = .typeError
    · subst h
      pysteps
    · pyforks [h]

/-- `ProxyPy.__repr__`. -/
theorem C78_repr (X : Ctx A) (id : Nat) (w c : Val) :
    asText X (run (lang X own) Proxy.ProxyPy.__repr__ [.v (.proxy id w c)]) = val (popPy X id w c .repr) := by
  apply ext_fork
  intro s
  unfold popPy strPy defaultReprPy asText
  pysteps [Proxy.ProxyPy.__repr__]
  refine fork_ext (fun v s' hv => ?_) (fun e s' he => ?_)
  · pyforks
  · by_cases h : e = .typeError
    · subst h
      pysteps
    · pyforks [h]

/-- `_check_name`. -/
theorem C78_check_name (X : Ctx A) (m : Name) (b : Bool) :
    run (lang X own) Proxy._check_name [.base m, .v (.bool b)] =
      pure (.clos "_check_name._wrapper" [("name", .v (.str 0 m)), ("wrap_result", .v (.bool b)), ("meth", .base m)]) := by
  apply ext_fork
  intro s
  pysteps [Proxy._check_name]

/-- `_check_name` with one argument. -/
theorem C78_check_name1 (X : Ctx A) (m : Name) :
    run (lang X own) Proxy._check_name [.base m] =
      pure (.clos "_check_name._wrapper" [("name", .v (.str 0 m)), ("wrap_result", .v (.bool true)), ("meth", .base m)]) := by
  apply ext_fork
  intro s
  pysteps [Proxy._check_name]

/-- `_check_name_inplace`. -/
theorem C78_check_name_inplace (X : Ctx A) (m : Name) :
    run (lang X own) Proxy._check_name_inplace [.base m] =
      pure (.clos "_check_name_inplace._wrapper" [("name", .v (.str 0 m)), ("meth", .base m)]) := by
  apply ext_fork
  intro s
  pysteps [Proxy._check_name_inplace]

/-- The function `_check_name` returns. -/
theorem C78_wrapper (X : Ctx A) (id : Nat) (w c : Val) (m : Name) (b : Bool) (args : List Val) :
    runIn (lang X user) Proxy._check_name._wrapper
      [("name", .v (.str 0 m)), ("wrap_result", .v (.bool b)), ("meth", .base m)] (.v (.proxy id w c) :: args.map .v) [] = (do
      let s ← M.get
      let cc := proxyChecker X s id c
      guard X .check cc (proxyWrapped X s id w) m
      let s1 ← M.get
      let r ← perform X (baseOp m args (proxyWrapped X s1 id w))
      let v ← baseResult X m r
      if b then val (chkProxy X cc v) else pure (.v v)) := by
  apply ext_fork
  intro s
  cases b <;> pyforks [Proxy._check_name._wrapper, guard, callBaseWith, callBase, List.append_nil]

/-- The function `_check_name_inplace` returns. -/
theorem C78_inplace (X : Ctx A) (id : Nat) (w c o : Val) (b : InName) :
    runIn (lang X user) Proxy._check_name_inplace._wrapper
      [("name", .v (.str 0 b.op)), ("meth", .base b.op)] [.v (.proxy id w c), .v o] [] = val (inplacePy X id w c b o) := by
  apply ext_fork
  intro s
  unfold inplacePy
  pysteps [Proxy._check_name_inplace._wrapper, guard]
  refine fork_ext (fun v s' hv => ?_) (fun e s' he => ?_)
  · pysteps [user]
    refine fork_ext (fun m s' hm => ?_) (fun e s' he => ?_)
    · by_cases h : m = .none
      · subst h
        pyforks [List.append_nil]
      · pyforks [h, List.append_nil, setattrPy]
    · pysteps
  · pysteps

/-- `getObjectPy`, which is `removeSecurityProxy` of the pure-Python implementation. -/
theorem C78_getObjectPy (X : Ctx A) (x : Val) :
    run (lang X user) Proxy.getObjectPy [.v x] = (do
      let s ← M.get
      pure (.v (removeProxy X s x))) := by
  apply ext_fork
  intro s
  cases x <;> pysteps [Proxy.getObjectPy, removeProxy, Val.isProxy]

/-! ## The class after the module-level loops -/

/-- The class dictionary a module-level statement fills. -/
abbrev ClassDict := List (Name × PV)

/-- Calls at module level: `getattr(PyProxyBase, n)` is the method of the base class,
`setattr(ProxyPy, n, f)` puts a function into the class, and the two decorators are run from their
own source. -/
def classCall (X : Ctx ClassDict) (f : PV) (args : List PV) (_ : List (Name × PV)) : M ClassDict PV :=
  match f with
  | .sym f =>
    if f = "getattr" then
      match args with
      | [.sym c, .v (.str _ n)] => if c = "PyProxyBase" then pure (.base n) else stuck
      | _ => stuck
    else if f = "setattr" then
      match args with
      | [.sym c, .v (.str _ n), x] =>
        if c = "ProxyPy" then unit (M.modify fun s => { s with app := (n, x) :: s.app }) else stuck
      | _ => stuck
    else if f = "_check_name" then run (lang X own) Proxy._check_name args
    else if f = "_check_name_inplace" then run (lang X own) Proxy._check_name_inplace args
    else stuck
  | _ => stuck

/-- Module-level code of proxy.py. -/
def classLang (X : Ctx ClassDict) : Lang ClassDict := { lang X own with call := classCall X }

/-- The names of the first loop (proxy.py:257-311). -/
def checkedNames : List Name :=
  ["__call__", "__reduce__", "__reduce_ex__", "__getitem__", "__setitem__", "__delitem__", "__iter__", "__next__",
   "__contains__", "__neg__", "__pos__", "__abs__", "__invert__", "__complex__", "__int__", "__float__", "__index__",
   "__add__", "__sub__", "__mul__", "__truediv__", "__floordiv__", "__mod__", "__divmod__", "__pow__",
   "__radd__", "__rsub__", "__rmul__", "__rtruediv__", "__rfloordiv__", "__rmod__", "__rdivmod__", "__rpow__",
   "__lshift__", "__rshift__", "__and__", "__xor__", "__or__", "__rlshift__", "__rrshift__", "__rand__", "__rxor__",
   "__ror__"]

/-- The names of the third loop (proxy.py:322-336). -/
def inplaceNames : List Name :=
  ["__iadd__", "__isub__", "__imul__", "__itruediv__", "__ifloordiv__", "__imod__", "__ilshift__", "__irshift__",
   "__iand__", "__ixor__", "__ior__", "__ipow__"]

/-- A checking function; `b` says whether results are proxied. -/
def checking (b : Bool) (m : Name) : PV :=
  .clos "_check_name._wrapper" [("name", .v (.str 0 m)), ("wrap_result", .v (.bool b)), ("meth", .base m)]

/-- A checking function for an in-place operator. -/
def checkingInplace (m : Name) : PV :=
  .clos "_check_name_inplace._wrapper" [("name", .v (.str 0 m)), ("meth", .base m)]

/-- Putting a function for each name into the class. -/
def install (mk : Name → PV) (l : List Name) (d : ClassDict) : ClassDict := l.foldl (fun d n => (n, mk n) :: d) d

/-- What the loops put into the class. -/
def installed (d : ClassDict) : ClassDict :=
  install checkingInplace inplaceNames (install (checking false) ["__len__"] (install (checking true) checkedNames d))

section loops
variable {X : Ctx ClassDict}
theorem cl_glob : (classLang X).glob = lglob := (rfl)
theorem cl_iter : (classLang X).iter = liter := (rfl)
theorem cl_call : (classLang X).call = classCall X := (rfl)
theorem it_list (l : List PV) : (liter (.list l) : M A (List PV)) = pure l := (rfl)
theorem cc_getattr (a : Nat) (n : Name) (kw : List (Name × PV)) :
    classCall X (.sym "getattr") [.sym "PyProxyBase", .v (.str a n)] kw = pure (.base n) := (rfl)
theorem cc_setattr (a : Nat) (n : Name) (x : PV) (kw : List (Name × PV)) :
    classCall X (.sym "setattr") [.sym "ProxyPy", .v (.str a n), x] kw =
      unit (M.modify fun s => { s with app := (n, x) :: s.app }) := (rfl)
theorem cc_check (m : Name) (kw : List (Name × PV)) :
    classCall X (.sym "_check_name") [.base m] kw = pure (checking true m) := by
  show run (lang X own) Proxy._check_name [.base m] = _
  rw [C78_check_name1]; rfl
theorem cc_check2 (m : Name) (b : Bool) (kw : List (Name × PV)) :
    classCall X (.sym "_check_name") [.base m, .v (.bool b)] kw = pure (checking b m) := by
  show run (lang X own) Proxy._check_name [.base m, .v (.bool b)] = _
  rw [C78_check_name]; rfl
theorem cc_inplace (m : Name) (kw : List (Name × PV)) :
    classCall X (.sym "_check_name_inplace") [.base m] kw = pure (checkingInplace m) := by
  show run (lang X own) Proxy._check_name_inplace [.base m] = _
  rw [C78_check_name_inplace]; rfl
theorem glo_inplace : (lglob "_check_name_inplace" : M A PV) = pure (.sym "_check_name_inplace") := (rfl)

/-- A loop whose body puts one function into the class for each name. -/
theorem loop_install (mk : Name → PV) (b : Env → M ClassDict Flow)
    (hb : ∀ (n : Name) (env : Env) (kf : Flow → St ClassDict → Res PV × St ClassDict) (h : Exn → St ClassDict → Res PV × St ClassDict) s,
      ∃ env', fork (b (env.put "name" (.v (.str 0 n)))) kf h s = kf (.next env') { s with app := (n, mk n) :: s.app })
    (l : List Name) : ∀ (env : Env) (kf : Flow → St ClassDict → Res PV × St ClassDict)
      (h : Exn → St ClassDict → Res PV × St ClassDict) (s : St ClassDict),
    ∃ env', fork (forLoop (assign (classLang X) (.loc "name")) b (l.map fun n => .v (.str 0 n)) env) kf h s =
      kf (.next env') { s with app := install mk l s.app } := by
  induction l with
  | nil =>
    intro env kf h s
    exact ⟨env, by rw [List.map_nil, fl_nil]; rfl⟩
  | cons n l ih =>
    intro env kf h s
    rw [List.map_cons, fl_cons]
    pysteps
    obtain ⟨e1, h1⟩ := hb n env (fun f => fork (afterItem (assign (classLang X) (.loc "name")) b (l.map fun n => .v (.str 0 n)) f) kf h) h s
    rw [Env.put] at h1
    rw [h1, im_next]
    obtain ⟨e2, h2⟩ := ih e1 kf h { s with app := (n, mk n) :: s.app }
    exact ⟨e2, h2⟩
end loops

/-- **The module-level loops of proxy.py** put exactly the checking functions into the class. -/
theorem C78_loops (X : Ctx ClassDict) (s : St ClassDict) :
    run (classLang X) Proxy._loops [] s = (.ok (.v .none), { s with app := installed s.app }) := by
  refine fork_run ?_
  have one : ∀ (f : Name) (args : List Expr) (mk : Name → PV), (∀ n env (kf : PV → St ClassDict → Res PV × St ClassDict) h s,
      fork (eval (classLang X) (.call (.glo f) args) (Env.put (Env.put env "name" (.v (.str 0 n))) "meth" (.base n))) kf h s = kf (mk n) s) →
    ∀ (n : Name) (env : Env) (kf : Flow → St ClassDict → Res PV × St ClassDict) (h : Exn → St ClassDict → Res PV × St ClassDict) s,
      ∃ env', fork (execs (classLang X) [.assign (.loc "meth") (.call (.glo "getattr") [.glo "PyProxyBase", .loc "name"]),
        .expr (.call (.glo "setattr") [.glo "ProxyPy", .loc "name", .call (.glo f) args])] none (env.put "name" (.v (.str 0 n)))) kf h s =
        kf (.next env') { s with app := (n, mk n) :: s.app } := by
    intro f args mk hf n env kf h s
    refine ⟨Env.put (Env.put env "name" (.v (.str 0 n))) "meth" (.base n), ?_⟩
    pysteps [cl_glob, cl_call, cc_getattr]
    have := hf n env
    simp only [Env.put] at this
    pysteps [cl_glob, cl_call, cc_setattr, this]
  pysteps [Proxy._loops, cl_glob, cl_iter, it_list]
  obtain ⟨e1, h1⟩ := loop_install (X := X) (checking true) _ (one "_check_name" [.loc "meth"] _ (by
    intro n env kf h s; pysteps [cl_glob, cl_call, cc_check])) checkedNames [] _ errK s
  refine h1.trans ?_
  pysteps [cl_glob, cl_iter, it_list]
  obtain ⟨e2, h2⟩ := loop_install (X := X) (checking false) _ (one "_check_name" [.loc "meth", .false] _ (by
    intro n env kf h s; pysteps [cl_glob, cl_call, cc_check2])) ["__len__"] e1 _ errK _
  refine h2.trans ?_
  pysteps [cl_glob, cl_iter, it_list]
  obtain ⟨e3, h3⟩ := loop_install (X := X) checkingInplace _ (one "_check_name_inplace" [.loc "meth"] _ (by
    intro n env kf h s; pysteps [cl_glob, cl_call, cc_inplace, glo_inplace])) inplaceNames e2 _ errK _
  refine h3.trans ?_
  pysteps
  rfl

end ZS.Props
