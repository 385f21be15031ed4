import Verif.Model.PyRest
import Verif.Lemmas.PyDeclRun
import Verif.Lemmas.PyWatchRun
import Verif.Props.SourceChecker
import Verif.Examples.World

/-!
# C85 The remaining functions: proxies, globals, tracebacks, factories
-/

namespace ZS.Props
open ZS.PyC ZS.Src
variable {A : Type}

section
variable (X : Ctx Attrs)
theorem slot_method : (slotLang X).method = bmethod := (rfl)
theorem slot_compare : (slotLang X).compare = lcompare X own := (rfl)
theorem slot_truth : (slotLang X).truth = ltruth X := (rfl)
theorem make_method : (makeLang X).method = bmethod := (rfl)
theorem make_setattr : (makeLang X).setattr = makeSetattr X := (rfl)
theorem make_glob : (makeLang X).glob = lglob := (rfl)
theorem make_call : (makeLang X).call = lcall X own := (rfl)
theorem make_same : (makeLang X).same = PyC.same := (rfl)
theorem make_truth : (makeLang X).truth = ltruth X := (rfl)
theorem make_raising (x : PV) : raising (makeLang X) x = (ltoExn x).getD .typeError := by
  unfold raising; rw [show (makeLang X).toExn = ltoExn from rfl]; cases ltoExn x <;> rfl
theorem bdo_new (kw : List (Name × PV)) : bmethod (.sup (.sym "ProxyPy")) "__new__" [.sym "ProxyPy"] kw = pure (.sym "self") := (rfl)
theorem bdo_set (a : Nat) (n : Name) (x : PV) (kw : List (Name × PV)) : bmethod (.sup (.sym "self")) "__setattr__" [.v (.str a n), x] kw = (do
    M.modify fun s => { s with app := (n, x) :: s.app }
    pure (.v .none)) := (rfl)

/-- Assigning `_wrapped` or `_checker` to a proxy under construction is not checked. -/
theorem make_slot (n : Name) (hn : n = "_wrapped" ∨ n = "_checker") (x : PV) :
    makeSetattr X (.sym "self") n x = M.modify fun s => { s with app := (n, x) :: s.app } := by
  apply ext_fork
  intro s
  unfold makeSetattr
  rcases hn with rfl | rfl <;>
  · pysteps [Proxy.ProxyPy.__setattr__, slot_method, slot_compare, slot_truth, bdo_set]

theorem C85_new (v c : Val) (s : St Attrs) : run (makeLang X) Proxy.ProxyPy.__new__ [.sym "ProxyPy", .v v, .v c] s =
    (.ok (.sym "self"), { s with app := ("_checker", .v c) :: ("_wrapped", .v v) :: s.app }) := by
  refine fork_run ?_
  pysteps [Proxy.ProxyPy.__new__, make_method, make_setattr, bdo_new, make_slot]
  rfl

/-- `__init__` refuses `None` as checker. -/
theorem C85_init (v c : Val) (s : St Attrs) : run (makeLang X) Proxy.ProxyPy.__init__ [.sym "self", .v v, .v c] s =
    if c = .none then (.err .valueError, s) else (.ok (.v .none), { s with app := ("_checker", .v c) :: ("_wrapped", .v v) :: s.app }) := by
  refine fork_run ?_
  by_cases hc : c = .none
  · subst hc
    pysteps [Proxy.ProxyPy.__init__, make_glob, make_call, make_same, make_truth, make_raising]
    rfl
  · pysteps [Proxy.ProxyPy.__init__, make_method, make_setattr, make_glob, make_call, make_same, make_truth, make_slot, hc]
    rfl
end

theorem construct_run (X : Ctx Attrs) (v c : Val) (s : St Attrs) : construct X v c s =
    if c = .none then (.err .valueError, { s with app := ("_checker", .v c) :: ("_wrapped", .v v) :: s.app })
    else (.ok (.sym "self"), { s with app := ("_checker", .v c) :: ("_wrapped", .v v) :: ("_checker", .v c) :: ("_wrapped", .v v) :: s.app }) := by
  unfold construct
  rw [bind_ok (C85_new X v c s)]
  have h := C85_init X v c { s with app := ("_checker", .v c) :: ("_wrapped", .v v) :: s.app }
  by_cases hc : c = .none
  · rw [if_pos hc] at h ⊢
    rw [bind_err h]
  · rw [if_neg hc] at h ⊢
    rw [bind_ok h]
    rfl

/-- **C85** `ProxyPy(v, c)`, its constructors and the assignments to its slots run from source, makes the proxy of the model. -/
theorem C85_proxy (X : Ctx Attrs) (v c : Val) : (sourceProxy X v c : M A Val) = newProxy v c := by
  funext s
  unfold sourceProxy newProxy
  rw [construct_run]
  by_cases hc : c = .none
  · rw [if_pos hc, if_pos hc]
    rfl
  · rw [if_neg hc, if_neg hc]
    rfl

section
variable (X : Ctx A)
theorem rest_glob : (restLang X).glob = rglob := (rfl)
theorem rest_call : (restLang X).call = rcall X := (rfl)
theorem rest_method : (restLang X).method = rmethod X := (rfl)
theorem rest_getattr : (restLang X).getattr = lgetattr X own := (rfl)
theorem rglo_isinstance : (rglob "_builtin_isinstance" : M A PV) = pure (.sym "_builtin_isinstance") := (rfl)
theorem rglo_remove : (rglob "removeSecurityProxy" : M A PV) = pure (.sym "removeSecurityProxy") := (rfl)
theorem rglo_getChecker : (rglob "getChecker" : M A PV) = pure (.sym "getChecker") := (rfl)
theorem rglo_sorted : (rglob "sorted" : M A PV) = pure (.sym "sorted") := (rfl)
theorem rcall_isinstance (x : Val) (c : Name) (kw : List (Name × PV)) :
    rcall X (.sym "_builtin_isinstance") [.v x, .sym c] kw = pure (.v (.bool (X.W.isInst x c))) := (rfl)
theorem rcall_one (f : Name) (x : Val) (kw : List (Name × PV)) : rcall X (.sym f) [.v x] kw = lcall X own (.sym f) [.v x] kw := (rfl)
theorem rcall_sorted (l : List PV) (kw : List (Name × PV)) : rcall X (.sym "sorted") [.list l] kw = pure (.list (l.mergeSort inOrder)) := (rfl)
theorem rdo_items (d : Nat) (l : List PV) (kw : List (Name × PV)) : rmethod X (.dict d) "items" l kw = (do
    let s ← M.get
    pure (.list ((s.dicts d).map fun p => .tuple [.v (.str 0 p.1), .v p.2]))) := (rfl)

/-- **C85** `zope.security.proxy.isinstance` is what the model says. -/
theorem C85_isinstance (o : Val) (c : Name) : run (restLang X) Proxy.isinstance [.v o, .sym c] = truthOf (secIsinstance X o c) := by
  apply ext_fork
  intro s
  pysteps [Proxy.isinstance, rest_glob, rest_call, rglo_isinstance, rglo_remove, rcall_isinstance, rcall_one, secIsinstance]

/-- The items of a permission dictionary, as pairs. -/
def itemsIn (d : PyDict Name Val) : List PV := d.map fun p => .tuple [.v (.str 0 p.1), .v p.2]

theorem items_sorted (d : PyDict Name Val) : (itemsIn d).mergeSort inOrder = itemsIn (d.mergeSort fun a b => decide (a.1 ≤ b.1)) := by
  unfold itemsIn
  rw [List.map_mergeSort]
  intro a _ b _
  rfl

theorem fork_readDict {β : Type} {x : Val} {g st : Nat} (hd : checkerDicts x = some (g, st)) (k : PV → St A → Res β × St A)
    (h : Exn → St A → Res β × St A) (s : St A) : fork (readDict x) k h s = k (.dict g) s := by
  cases x <;> simp only [checkerDicts, Option.some.injEq, Prod.mk.injEq, reduceCtorEq] at hd
  · obtain ⟨rfl, rfl⟩ := hd; rfl
  · obtain ⟨rfl, rfl⟩ := hd; rfl

/-- **C85** `getTestProxyItems` of a proxy: the items of the dictionary of its checker, all of them and no others, sorted by name. -/
theorem C85_testItems (id : Nat) (w c : Val) (s : St A) (g st : Nat) (hd : checkerDicts (proxyChecker X s id c) = some (g, st)) :
    ∃ d, run (restLang X) Proxy.getTestProxyItems [.v (.proxy id w c)] s = (.ok (.list (itemsIn d)), s) ∧ d.Perm (s.dicts g)
      ∧ d.Pairwise fun a b => a.1 ≤ b.1 := by
  refine ⟨(s.dicts g).mergeSort fun a b => decide (a.1 ≤ b.1), ?_, List.mergeSort_perm _ _, ?_⟩
  · refine fork_run ?_
    pysteps [Proxy.getTestProxyItems, rest_glob, rest_call, rest_method, rest_getattr, rglo_getChecker, rglo_sorted, rcall_one, rcall_sorted, rdo_items,
      getChecker, ↓fork_readDict hd]
    rw [← items_sorted]
    rfl
  · have := List.pairwise_mergeSort (le := fun (a b : Name × Val) => decide (a.1 ≤ b.1))
      (fun a b c h1 h2 => by simp only [decide_eq_true_eq] at *; exact String.le_trans h1 h2)
      (fun a b => by simp only [Bool.or_eq_true, decide_eq_true_eq]; exact String.le_total _ _) (s.dicts g)
    exact this.imp (by simp only [decide_eq_true_eq]; exact fun h => h)

/-- What is not a proxy is refused. -/
theorem C85_testItems_bare (o : Val) (h : o.isProxy = false) (s : St A) :
    run (restLang X) Proxy.getTestProxyItems [.v o] s = (.err .typeError, s) := by
  refine fork_run ?_
  cases o <;> first
    | exact absurd h Bool.noConfusion
    | (pysteps [Proxy.getTestProxyItems, rest_glob, rest_call, rglo_getChecker, rglo_sorted, rcall_one, getChecker]; rfl)
end

section
variable (X : Ctx Attrs) (m : Name)
theorem global_glob : (globalLang X m).glob = gglob := (rfl)
theorem global_getattr : (globalLang X m).getattr = ggetattr := (rfl)
theorem global_setattr : (globalLang X m).setattr = osetattr := (rfl)
theorem global_getitem : (globalLang X m).getitem = ggetitem m := (rfl)
theorem global_method : (globalLang X m).method = gmethod := (rfl)
theorem global_same : (globalLang X m).same = PyC.same := (rfl)
theorem global_truth : (globalLang X m).truth = ltruth X := (rfl)
theorem gglo_sys : gglob "sys" = pure (.sym "sys") := (rfl)
theorem gdo_frame (l : List PV) (kw : List (Name × PV)) : gmethod (.sym "sys") "_getframe" l kw = pure (.sym "frame") := (rfl)
theorem gget_locals : ggetattr (.sym "frame") "f_locals" = pure (.sym "f_locals") := (rfl)
theorem gitem_name (a : Nat) : ggetitem m (.sym "f_locals") (.v (.str a "__name__")) = pure (.v (.str 0 m)) := (rfl)
theorem gset (n : Name) (x : PV) : osetattr (.sym "self") n x = M.modify fun s => { s with app := (n, x) :: s.app } := (rfl)
theorem gget_class : ggetattr (.sym "self") "__class__" = pure (.sym "Global") := (rfl)
theorem gget_className : ggetattr (.sym "Global") "__name__" = pure (.v (.str 0 "Global")) := (rfl)
theorem fork_gget {β : Type} {n : Name} {x : PV} {s : St Attrs} (hn : n ≠ "__class__") (h : Env.get? s.app n = some x)
    (k : PV → St Attrs → Res β × St Attrs) (he : Exn → St Attrs → Res β × St Attrs) : fork (ggetattr (.sym "self") n) k he s = k x s := by
  simp only [ggetattr, if_true, hn, if_false, fork_bind, fork_get, h, fork_pure]

/-- The object has the name and the module. -/
def Named (s : St Attrs) (name module : PV) : Prop := Env.get? s.app "__name__" = some name ∧ Env.get? s.app "__module__" = some module

/-- **C85** `Global(name)` belongs to the module it is made in. -/
theorem C85_global (a : Nat) (n : Name) (s : St Attrs) :
    ∃ s', run (globalLang X m) Checker.Global.__init__ [.sym "self", .v (.str a n)] s = (.ok (.v .none), s') ∧ Named s' (.v (.str a n)) (.v (.str 0 m)) := by
  refine ⟨{ s with app := ("__module__", .v (.str 0 m)) :: ("__name__", .v (.str a n)) :: s.app }, fork_run ?_, ?_⟩
  · pysteps [Checker.Global.__init__, global_glob, global_getattr, global_setattr, global_getitem, global_method, global_same, global_truth, gglo_sys,
      gdo_frame, gget_locals, gitem_name, gset]
    rfl
  · exact ⟨rfl, rfl⟩

/-- ... or to the one given. -/
theorem C85_global_module (a b : Nat) (n q : Name) (s : St Attrs) :
    ∃ s', run (globalLang X m) Checker.Global.__init__ [.sym "self", .v (.str a n), .v (.str b q)] s = (.ok (.v .none), s')
      ∧ Named s' (.v (.str a n)) (.v (.str b q)) := by
  refine ⟨{ s with app := ("__module__", .v (.str b q)) :: ("__name__", .v (.str a n)) :: s.app }, fork_run ?_, ?_⟩
  · pysteps [Checker.Global.__init__, global_glob, global_getattr, global_setattr, global_getitem, global_method, global_same, global_truth, gset]
    rfl
  · exact ⟨rfl, rfl⟩

/-- **C85** It is pickled as the global of its name. -/
theorem C85_global_reduce (s : St Attrs) (name module : PV) (h : Named s name module) :
    run (globalLang X m) Checker.Global.__reduce__ [.sym "self"] s = (.ok name, s) := by
  refine fork_run ?_
  pysteps [Checker.Global.__reduce__, global_getattr, ↓fork_gget (by decide) h.1]
  rfl

theorem t_global : braces "{}({},{})".toList [] = [.str, .lit "(", .str, .lit ",", .str, .lit ")"] := by decide
theorem gdo_format (a b c d : Nat) (x y z : String) (kw : List (Name × PV)) :
    gmethod (.v (.str a "{}({},{})")) "format" [.v (.str b x), .v (.str c y), .v (.str d z)] kw =
      pure (.v (.str 0 (x ++ ("(" ++ (y ++ ("," ++ (z ++ (")" ++ "")))))))) := (rfl)

/-- Its representation. -/
theorem C85_global_repr (s : St Attrs) (a b : Nat) (n q : Name) (h : Named s (.v (.str a n)) (.v (.str b q))) :
    run (globalLang X m) Checker.Global.__repr__ [.sym "self"] s = (.ok (.v (.str 0 ("Global(" ++ n ++ "," ++ q ++ ")"))), s) := by
  refine fork_run ?_
  pysteps [Checker.Global.__repr__, global_getattr, global_method, ↓fork_gget (by decide) h.1, ↓fork_gget (by decide) h.2, gget_class, gget_className, gdo_format]
  rw [show ("Global(" : String) = "Global" ++ "(" from by decide]
  simp only [okK, String.append_assoc, String.append_empty]
end

/-! ## Tracebacks -/

/-- No exception. -/
def Calm {β : Type} (r : Res β × St A) : Prop := ∀ e s, r ≠ (.err e, s)

theorem calm_fork {α β : Type} {x : M A α} {k : α → St A → Res β × St A} {h : Exn → St A → Res β × St A} {s : St A}
    (hk : ∀ a s', Calm (k a s')) (hh : ∀ e s', Calm (h e s')) : Calm (fork x k h s) := by
  unfold fork
  rcases x s with ⟨r, s'⟩
  cases r with
  | ok a => exact hk a s'
  | err e => exact hh e s'
  | diverge => intro e t h; cases h

theorem calm_ite {β : Type} {c : Prop} [Decidable c] {x y : Res β × St A} (hx : Calm x) (hy : Calm y) : Calm (if c then x else y) := by
  split
  · exact hx
  · exact hy

/-- The statements of `getInfo` that describe a class, found by `e`. -/
def describe (e : Expr) (text : String) : Stmt :=
  .try
     [.assign (.loc "cls") e,
      .if (.call (.glo "hasattr") [.loc "cls", .str "__module__"])
       [.assign (.loc "s") (.fstr [.fmt "" (.attr (.loc "cls") "__module__"), .str ".", .fmt "" (.attr (.loc "cls") "__name__")])]
       [.assign (.loc "s") (.call (.glo "str") [.attr (.loc "cls") "__name__"])],
      .aug "+" (.loc "result") (.list [.bin "+" (.str text) (.loc "s")])]
     [.handler none none
       [.pass]]
     []
     []

theorem calm_describe {β : Type} (L : Lang A) (e : Expr) (text : String) (rest : List Stmt) (slf r : PV) (kf : Flow → St A → Res β × St A)
    (h : Exn → St A → Res β × St A)
    (hr : ∀ env s, Env.get? env "self" = some slf → (∃ r, Env.get? env "result" = some r) → Calm (fork (execs L rest none env) kf h s))
    (env : Env) (s : St A) (h1 : Env.get? env "self" = some slf) (h2 : Env.get? env "result" = some r) :
    Calm (fork (execs L (describe e text :: rest) none env) kf h s) := by
  unfold describe
  pysteps
  refine calm_fork (fun c s => ?_) (fun e s => ?_)
  · pysteps
    repeat' first
      | exact hr _ _ h1 ⟨_, h2⟩
      | exact hr _ _ (by pysteps [h1]) ⟨_, h2⟩
      | exact hr _ _ (by pysteps [h1]) ⟨_, rfl⟩
      | refine calm_ite ?_ ?_
      | (refine calm_fork (fun c s => ?_) (fun e s => ?_) <;> try pysteps [↓ex_aug, ↓ea_fstr, ↓ea_list, h2])
  · pysteps
    exact hr _ _ h1 ⟨_, h2⟩

/-- **C85** The supplement of a traceback never raises, whatever the object and its classes do: in every language in which joining lines does not
raise. -/
theorem C85_supplement (L : Lang A) (hj : ∀ x s, Calm (L.method (.v (.str 0 "\n")) "join" [x] [] s)) (slf : PV) (s : St A) :
    Calm (run L Checker.TracebackSupplement.getInfo [slf] s) := by
  have hc : ∀ env s, Env.get? env "self" = some slf → (∃ r, Env.get? env "result" = some r) →
      Calm (fork (execs L [.ret (.call (.attr (.str "\n") "join") [.loc "result"])] none env) (leave okK errK) errK s) := by
    intro env s _ ⟨r, hr⟩
    pysteps [hr]
    have h := hj r s
    unfold fork
    rcases hx : L.method (.v (.str 0 "\n")) "join" [r] [] s with ⟨x, s'⟩
    cases x with
    | ok a => pysteps; intro e t h; cases h
    | err e => exact absurd hx (h e s')
    | diverge => intro e t h; cases h
  have h2 : ∀ env s, Env.get? env "self" = some slf → (∃ r, Env.get? env "result" = some r) →
      Calm (fork (execs L [describe (.call (.glo "type") [.attr (.loc "self") "obj"]) "   - type: ",
        .ret (.call (.attr (.str "\n") "join") [.loc "result"])] none env) (leave okK errK) errK s) :=
    fun env s h1 ⟨r, h2⟩ => calm_describe L _ _ _ slf r _ _ hc env s h1 h2
  have h3 : ∀ env s, Env.get? env "self" = some slf → (∃ r, Env.get? env "result" = some r) →
      Calm (fork (execs L [describe (.attr (.attr (.loc "self") "obj") "__class__") "   - class: ",
        describe (.call (.glo "type") [.attr (.loc "self") "obj"]) "   - type: ",
        .ret (.call (.attr (.str "\n") "join") [.loc "result"])] none env) (leave okK errK) errK s) :=
    fun env s h1 ⟨r, h2'⟩ => calm_describe L _ _ _ slf r _ _ h2 env s h1 h2'
  have hb : Checker.TracebackSupplement.getInfo.body = .assign (.loc "result") (.list []) ::
      [describe (.attr (.attr (.loc "self") "obj") "__class__") "   - class: ",
        describe (.call (.glo "type") [.attr (.loc "self") "obj"]) "   - type: ",
        .ret (.call (.attr (.str "\n") "join") [.loc "result"])] := rfl
  generalize [describe (.attr (.attr (.loc "self") "obj") "__class__") "   - class: ",
        describe (.call (.glo "type") [.attr (.loc "self") "obj"]) "   - type: ",
        .ret (.call (.attr (.str "\n") "join") [.loc "result"])] = rest at h3 hb
  rw [asFork (run L Checker.TracebackSupplement.getInfo [slf]) s, run_eq, hb,
    show Checker.TracebackSupplement.getInfo.params = [("self", none)] from rfl, fork_bp_nil]
  pysteps [show Checker.TracebackSupplement.getInfo.star = none from rfl, show Checker.TracebackSupplement.getInfo.dstar = none from rfl]
  exact h3 _ s rfl ⟨_, rfl⟩

/-! ## The directive `factory` -/

section
variable (X : Ctx (List Utility)) (cls dotted : Name)
theorem factory_glob : (factoryLang X cls dotted).glob = fglob := (rfl)
theorem factory_getattr : (factoryLang X cls dotted).getattr = fgetattr cls dotted := (rfl)
theorem factory_call : (factoryLang X cls dotted).call = fcall := (rfl)
theorem factory_truth : (factoryLang X cls dotted).truth = ltruth X := (rfl)
theorem fglo_Factory : fglob "Factory" = pure (.sym "Factory") := (rfl)
theorem fglo_utility : fglob "utility" = pure (.sym "utility") := (rfl)
theorem fglo_IFactory : fglob "IFactory" = pure (.sym "IFactory") := (rfl)
theorem fglo_public : fglob "PublicPermission" = pure (.v publicPermission) := (rfl)
theorem fget_id : fgetattr cls dotted (.sym "self") "_ClassDirective__id" = pure (.v (.str 0 dotted)) := (rfl)
theorem fget_class : fgetattr cls dotted (.sym "self") "_ClassDirective__class" = pure (.v (.type cls)) := (rfl)
theorem fcall_Factory (x y z : PV) : fcall (.sym "Factory") [x, y, z] [] = pure (.tuple [.sym "Factory", x, y, z]) := (rfl)
theorem fcall_utility (i t : Name) (x y p n : Val) :
    fcall (.sym "utility") [.sym "_context", .sym i, .tuple [.sym "Factory", .v (.type t), .v x, .v y]] [("permission", .v p), ("name", .v n)] = (do
      M.modify fun s => { s with app := s.app ++ [⟨i, t, x, y, p, n⟩] }
      pure (.v .none)) := (rfl)

/-- Registrations are added to those requested. -/
def request (s : St (List Utility)) (u : Utility) : St (List Utility) := { s with app := s.app ++ [u] }

/-- **C85** The directive `factory` without id requests one registration, of a public factory of the class under the dotted name of the class. -/
theorem C85_factory_default (s : St (List Utility)) :
    run (factoryLang X cls dotted) Metaconfigure.ClassDirective.factory [.sym "self", .sym "_context"] s =
      (.ok (.v .none), request s ⟨"IFactory", cls, .str 0 "", .str 0 "", .str 0 "zope.Public", .str 0 dotted⟩) := by
  refine fork_run ?_
  pysteps [Metaconfigure.ClassDirective.factory, factory_glob, factory_getattr, factory_call, factory_truth, fglo_Factory, fglo_utility, fglo_IFactory,
    fglo_public, fget_id, fget_class, fcall_Factory, fcall_utility]
  rfl

/-- ... and with an id under that. -/
theorem C85_factory (a : Nat) (i : Name) (hi : i ≠ "") (t d : Val) (s : St (List Utility)) :
    run (factoryLang X cls dotted) Metaconfigure.ClassDirective.factory [.sym "self", .sym "_context", .v (.str a i), .v t, .v d] s =
      (.ok (.v .none), request s ⟨"IFactory", cls, t, d, .str 0 "zope.Public", .str a i⟩) := by
  refine fork_run ?_
  pysteps [Metaconfigure.ClassDirective.factory, factory_glob, factory_getattr, factory_call, factory_truth, fglo_Factory, fglo_utility, fglo_IFactory,
    fglo_public, fget_id, fget_class, fcall_Factory, fcall_utility]
  rw [if_pos (show truthy X.W (.str a i) = true from by simp [truthy, hi])]
  rfl

/-- The directive as a whole does nothing but what is nested in it. -/
theorem C85_class_call (L : Lang A) (slf : PV) (s : St A) : run L Metaconfigure.ClassDirective.__call__ [slf] s = (.ok (.tuple []), s) := by
  refine fork_run ?_
  pysteps [Metaconfigure.ClassDirective.__call__]
  rfl
end

end ZS.Props

namespace ZS.SourceRestEx
open ZS.PyC ZS.Props ZS.Src

/-- A proxy made from source, and one refused. -/
example (X : Ctx Attrs) : (sourceProxy X (.obj 1) Ex.c1 : M Unit Val) (Ex.s1 none) =
    (.ok (.proxy (Ex.s1 none).nextId (.obj 1) Ex.c1), { Ex.s1 none with nextId := (Ex.s1 none).nextId + 1 }) := by
  rw [C85_proxy]
  rfl
example (X : Ctx Attrs) : (sourceProxy X (.obj 1) .none : M Unit Val) (Ex.s1 none) = (.err .valueError, Ex.s1 none) := by
  rw [C85_proxy]
  rfl

/-- An instance through its proxy. -/
example : run (restLang (Ex.X .py)) Proxy.isinstance [.v (.proxy 70 (.obj 1) Ex.c1), .sym "Thing"] (Ex.s1 none) = (.ok (.v (.bool true)), Ex.s1 none) := by
  rw [C85_isinstance]
  rfl

/-- The items of the example checker. -/
example : ∃ d, run (restLang (Ex.X .c)) Proxy.getTestProxyItems [.v (.proxy 70 (.obj 1) Ex.c1)] (Ex.s1 none) = (.ok (.list (itemsIn d)), Ex.s1 none) ∧
    d.Perm [("a", publicV), ("b", Ex.view), ("c", Ex.edit), ("n", .none)] ∧ d.Pairwise fun a b => a.1 ≤ b.1 :=
  C85_testItems (Ex.X .c) 70 (.obj 1) Ex.c1 (Ex.s1 none) 30 31 rfl

/-- `CheckerPublic = Global('CheckerPublic')` in zope.security.checker. -/
example (X : Ctx Attrs) (s : St Attrs) : ∃ s', run (globalLang X "zope.security.checker") Checker.Global.__init__ [.sym "self", .v (.str 5 "CheckerPublic")] s =
    (.ok (.v .none), s') ∧ run (globalLang X "zope.security.checker") Checker.Global.__repr__ [.sym "self"] s' =
      (.ok (.v (.str 0 "Global(CheckerPublic,zope.security.checker)")), s') := by
  obtain ⟨s', h1, h2⟩ := C85_global X "zope.security.checker" 5 "CheckerPublic" s
  exact ⟨s', h1, C85_global_repr X _ s' 5 0 _ _ h2⟩

/-- A language in which everything but joining lines raises. -/
def broken : Lang Unit :=
  { lang (Ex.X .py) own with
    getattr := fun _ _ => M.throw .typeError
    glob := fun _ => M.throw .typeError
    method := fun _ _ _ _ => pure (.v (.str 0 "")) }
example : ∀ e s', run broken Checker.TracebackSupplement.getInfo [.v (.obj 1)] (Ex.s1 none) ≠ (.err e, s') :=
  C85_supplement broken (fun _ _ _ _ h => by cases h) _ _

/-- A factory with a name. -/
example (X : Ctx (List Utility)) (s : St (List Utility)) (h : s.app = []) :
    (run (factoryLang X "Thing" "mod.Thing") Metaconfigure.ClassDirective.factory
      [.sym "self", .sym "_context", .v (.str 9 "a.thing"), .v (.str 9 "A thing"), .v (.str 9 "")] s).2.app =
      [⟨"IFactory", "Thing", .str 9 "A thing", .str 9 "", .str 0 "zope.Public", .str 9 "a.thing"⟩] := by
  rw [C85_factory X "Thing" "mod.Thing" 9 "a.thing" (by decide)]
  show s.app ++ _ = _
  rw [h]
  rfl

end ZS.SourceRestEx
