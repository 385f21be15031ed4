import Verif.Model.PyAdapt
import Verif.Lemmas.PyRun

/-!
# Running the source of adapters, decorators and testing step by step

The lemmas of `Lemmas/PyRun.lean` for `adaptWith`, `decoLang`, `testLang` and `initLang`.
-/

namespace ZS.PyC
open ZS
variable {A β : Type}

section
variable {L : Lang A} {env : Env} {h : Exn → St A → Res β × St A} {s : St A} {kf : Flow → St A → Res β × St A} {cur : Option Exn}

/-- How a statement ends whose `finally` clause ended so. -/
def finished (f : Flow) : Flow → Flow
  | .next env' => f.withEnv env'
  | g => g
theorem finished_next (f : Flow) (env' : Env) : finished f (.next env') = f.withEnv env' := (rfl)
theorem finished_exc (f : Flow) (e : Exn) (env' : Env) : finished f (.exc e env') = .exc e env' := (rfl)
theorem with_next (e env' : Env) : (Flow.next e).withEnv env' = .next env' := (rfl)
theorem with_exc (x : Exn) (e env' : Env) : (Flow.exc x e).withEnv env' = .exc x env' := (rfl)
theorem env_next (e : Env) : (Flow.next e).env = e := (rfl)
theorem env_exc (x : Exn) (e : Env) : (Flow.exc x e).env = e := (rfl)
theorem aa_final (x : Stmt) (r : List Stmt) (f : Flow) : fork (afterAll L (x :: r) cur f) kf h s =
    fork (execs L (x :: r) cur f.env) (fun g => kf (finished f g)) h s := by
  unfold afterAll
  rw [fork_bind]
  congr 1
  funext g s
  cases g <;> rfl
end

section
variable (X : Ctx A) (ms : Methods) (f : Val) (go : Fn → List PV → M A PV)

theorem adapt_glob : (adaptWith X ms f go).glob = aglob := (rfl)
theorem adapt_getattr : (adaptWith X ms f go).getattr = agetattr X := (rfl)
theorem adapt_setattr : (adaptWith X ms f go).setattr = asetattr X := (rfl)
theorem adapt_getitem : (adaptWith X ms f go).getitem = agetitem := (rfl)
theorem adapt_iter : (adaptWith X ms f go).iter = aiter := (rfl)
theorem adapt_call : (adaptWith X ms f go).call = acall X := (rfl)
theorem adapt_method : (adaptWith X ms f go).method = amethod X ms f go := (rfl)
theorem adapt_same : (adaptWith X ms f go).same = PyC.same := (rfl)
theorem adapt_truth : (adaptWith X ms f go).truth = ltruth X := (rfl)

theorem aglo_ILocation : (aglob "ILocation" : M A PV) = pure (.sym "ILocation") := (rfl)
theorem aglo_LocationProxy : (aglob "LocationProxy" : M A PV) = pure (.sym "LocationProxy") := (rfl)
theorem aglo_assertLocation : (aglob "assertLocation" : M A PV) = pure (.sym "assertLocation") := (rfl)
theorem aglo_remove : (aglob "removeSecurityProxy" : M A PV) = pure (.sym "removeSecurityProxy") := (rfl)
theorem aglo_ProxyFactory : (aglob "ProxyFactory" : M A PV) = pure (.sym "ProxyFactory") := (rfl)
theorem aget (x : Val) : agetattr X (.v x) "__parent__" = val (readParent X x) := (rfl)
theorem aset (x y : Val) : asetattr X (.v x) "__parent__" (.v y) = writeParent X x y := (rfl)
theorem aitem_list (y : PV) (r : List PV) : (agetitem (.list (y :: r)) (.v (.int 0)) : M A PV) = pure y := (rfl)
theorem aitem_tuple (y : PV) (r : List PV) : (agetitem (.tuple (y :: r)) (.v (.int 0)) : M A PV) = pure y := (rfl)
theorem aitem_nolist : (agetitem (.list []) (.v (.int 0)) : M A PV) = M.throw .indexError := (rfl)
theorem aitem_notuple : (agetitem (.tuple []) (.v (.int 0)) : M A PV) = M.throw .indexError := (rfl)
theorem aiter_list (l : List PV) : (aiter (.list l) : M A (List PV)) = pure l := (rfl)
theorem aiter_tuple (l : List PV) : (aiter (.tuple l) : M A (List PV)) = pure l := (rfl)
theorem acall_LocationProxy (x : Val) (kw : List (Name × PV)) : acall X (.sym "LocationProxy") [.v x] kw = (do
    let id ← newLocationProxy x
    pure (.v (.deco id locationProxy x))) := (rfl)
theorem acall_assertLocation (x y : Val) (kw : List (Name × PV)) :
    acall X (.sym "assertLocation") [.v x, .v y] kw = val (assertLocation X x y) := (rfl)
theorem acall_remove (x : Val) (kw : List (Name × PV)) : acall X (.sym "removeSecurityProxy") [.v x] kw = (do
    let s ← M.get
    pure (.v (removeProxy X s x))) := (rfl)
theorem acall_ProxyFactory (x : Val) (kw : List (Name × PV)) :
    acall X (.sym "ProxyFactory") [.v x] kw = val (proxyFactory X x .none) := (rfl)
theorem valsOf_map (l : List Val) : valsOf (l.map .v) = some l := by
  induction l with
  | nil => rfl
  | cons x r ih => rw [List.map_cons, valsOf, ih]; rfl
theorem ado_factory (l : List Val) (kw : List (Name × PV)) :
    amethod X ms f go (.sym "self") "factory" (l.map .v) kw = val (perform X (.call f l)) := by
  show (match valsOf (l.map .v) with
    | some l => val (perform X (.call f l))
    | none => stuck) = _
  rw [valsOf_map]
theorem ado_protected (l : List PV) (kw : List (Name × PV)) :
    amethod X ms f go (.sym "self") "_customizeProtected" l kw = dispatch ms go "_customizeProtected" l := (rfl)
theorem ado_unprotected (l : List PV) (kw : List (Name × PV)) :
    amethod X ms f go (.sym "self") "_customizeUnprotected" l kw = dispatch ms go "_customizeUnprotected" l := (rfl)
theorem ado_provided (x : Val) (kw : List (Name × PV)) :
    amethod X ms f go (.sym "ILocation") "providedBy" [.v x] kw = pure (.v (.bool (X.W.isLoc x))) := (rfl)

theorem deco_call : (decoLang X).call = ccall X := (rfl)
theorem deco_glob : (decoLang X).glob = lglob := (rfl)
theorem deco_getattr : (decoLang X).getattr = cgetattr := (rfl)
theorem deco_bin : (decoLang X).bin = cbin := (rfl)
theorem deco_same : (decoLang X).same = PyC.same := (rfl)
theorem deco_truth : (decoLang X).truth = ltruth X := (rfl)
theorem deco_raising (x : PV) : raising (decoLang X) x = (ltoExn x).getD .typeError := by
  unfold raising; rw [show (decoLang X).toExn = ltoExn from rfl]; cases ltoExn x <;> rfl
theorem ccall_inner (i : Nat) (c : String) (y : Val) (kw : List (Name × PV)) :
    ccall X (.sym "getProxiedObject") [.v (.deco i c y)] kw = pure (.v y) := (rfl)
theorem ccall_isinstance (x : Val) (c : Name) (kw : List (Name × PV)) :
    ccall X (.sym "isinstance") [.v x, .sym c] kw = lcall X own (.sym "isinstance") [.v x, .sym c] kw := (rfl)
theorem ccall_getChecker (x : Val) (kw : List (Name × PV)) :
    ccall X (.sym "getChecker") [.v x] kw = val (getChecker X x) := (rfl)
theorem ccall_select (x : Val) (kw : List (Name × PV)) :
    ccall X (.sym "selectChecker") [.v x] kw = val (selectChecker X x) := (rfl)
theorem ccall_getattr (x : Val) (y z : PV) (kw : List (Name × PV)) :
    ccall X (.sym "getattr") [.v x, y, z] kw = lcall X own (.sym "getattr") [.v x, y, z] kw := (rfl)
theorem ccall_combined (x y : Val) (kw : List (Name × PV)) :
    ccall X (.sym "CombinedChecker") [.v x, .v y] kw = val (newCombined x y) := (rfl)
theorem ccall_AttributeError (a : Nat) (n : Name) (kw : List (Name × PV)) :
    ccall X (.sym "AttributeError") [.v (.str a n)] kw = pure (.exn (.attributeError n)) := (rfl)
theorem ccall_TypeError (a : Nat) (n : Name) (kw : List (Name × PV)) :
    ccall X (.sym "TypeError") [.v (.str a n)] kw = pure (.exn .typeError) := (rfl)
theorem cget_class (x : Val) : (cgetattr (.v x) "__class__" : M A PV) = pure (.bound (.v x) "__class__") := (rfl)
theorem cget_name (x : Val) (m : Name) : (cgetattr (.bound (.v x) m) "__name__" : M A PV) = pure (.v (.str 0 "class name")) := (rfl)
theorem cmessage (a b : Nat) (x : PV) (n : Name) :
    (cbin "%" (.v (.str a "%r has no attribute %r")) (.tuple [x, .v (.str b n)]) : M A PV) = pure (.v (.str 0 n)) := (rfl)

variable (body : Option Principal → M A Val)
theorem test_glob : (testLang X body).glob = tglob := (rfl)
theorem test_getattr : (testLang X body).getattr = tgetattr := (rfl)
theorem test_call : (testLang X body).call = tcall X body := (rfl)
theorem test_method : (testLang X body).method = tmethod X := (rfl)
theorem test_truth : (testLang X body).truth = ltruth X := (rfl)
theorem tglo_Principal : (tglob "Principal" : M A PV) = pure (.sym "Principal") := (rfl)
theorem tglo_Participation : (tglob "Participation" : M A PV) = pure (.sym "Participation") := (rfl)
theorem tglo_zope : (tglob "zope" : M A PV) = pure (.sym "zope") := (rfl)
theorem tglo_create : (tglob "create_interaction" : M A PV) = pure (.sym "create_interaction") := (rfl)
theorem tglo_body : (tglob "%body" : M A PV) = pure (.sym "%body") := (rfl)
theorem tget_security : (tgetattr (.sym "zope") "security" : M A PV) = pure (.sym "zope.security") := (rfl)
theorem tget_management : (tgetattr (.sym "zope.security") "management" : M A PV) = pure (.sym "zope.security.management") := (rfl)
theorem tcall_Principal (a : Nat) (n : String) (kw : List (Name × PV)) :
    tcall X body (.sym "Principal") [.v (.str a n)] kw = pure (.user (.user n)) := (rfl)
theorem tcall_create (a : Nat) (n : String) (kw : List (Name × PV)) :
    tcall X body (.sym "create_interaction") [.v (.str a n)] kw = (do
      let p ← createInteraction X n
      pure (.user p)) := (rfl)
theorem tcall_Participation (p : Principal) (kw : List (Name × PV)) :
    tcall X body (.sym "Participation") [.user p] kw = (do
      let q ← newParticipation p
      pure (.part q)) := (rfl)
theorem tcall_body (p : Principal) (kw : List (Name × PV)) : tcall X body (.sym "%body") [.user p] kw = val (body (some p)) := (rfl)
theorem tcall_nobody (kw : List (Name × PV)) : tcall X body (.sym "%body") [.v .none] kw = val (body none) := (rfl)
theorem tdo_query (kw : List (Name × PV)) :
    tmethod X (.sym "zope.security.management") "queryInteraction" [] kw = val (queryInteraction X) := (rfl)
theorem tdo_end (kw : List (Name × PV)) :
    tmethod X (.sym "zope.security.management") "endInteraction" [] kw = unit (endInteraction X) := (rfl)
theorem tdo_new (p : Nat) (kw : List (Name × PV)) :
    tmethod X (.sym "zope.security.management") "newInteraction" [.part p] kw = unit (newInteraction X [p]) := (rfl)
end

section
variable (X : Ctx Attrs)
theorem init_glob : (initLang X).glob = iglob := (rfl)
theorem init_getattr : (initLang X).getattr = igetattr X := (rfl)
theorem init_setattr : (initLang X).setattr = osetattr := (rfl)
theorem init_method : (initLang X).method = imethod := (rfl)
theorem init_same : (initLang X).same = PyC.same := (rfl)
theorem init_truth : (initLang X).truth = ltruth X := (rfl)
theorem iglo_interface : iglob "interface" = pure (.sym "interface") := (rfl)
theorem iglo_interfaces : iglob "interfaces" = pure (.sym "interfaces") := (rfl)
theorem iget_v (x : Val) (n : Name) : igetattr X (.v x) n = val (probe X (.getattr x n)) := (rfl)
theorem iget_interfaces (n : Name) : igetattr X (.sym "interfaces") n = pure (.sym n) := (rfl)
theorem iset (n : Name) (x : PV) : osetattr (.sym "self") n x = M.modify fun s => { s with app := (n, x) :: s.app } := (rfl)
theorem ido (l : List PV) (kw : List (Name × PV)) : imethod (.sym "interface") "directlyProvides" l kw = pure (.v .none) := (rfl)
end

section
variable (X : Ctx Shop)
theorem shop_glob : (shopLang X).glob = sglob := (rfl)
theorem shop_getattr : (shopLang X).getattr = sgetattr := (rfl)
theorem shop_call : (shopLang X).call = scall := (rfl)
theorem shop_method : (shopLang X).method = smethod := (rfl)
theorem sglo_name : sglob "PUBLIC_PERMISSION_NAME" = pure (.v publicPermission) := (rfl)
theorem sglo_Permission : sglob "Permission" = pure (.sym "Permission") := (rfl)
theorem sglo_component : sglob "component" = pure (.sym "component") := (rfl)
theorem sglo_interfaces : sglob "interfaces" = pure (.sym "interfaces") := (rfl)
theorem sget_interfaces (n : Name) : sgetattr (.sym "interfaces") n = pure (.sym n) := (rfl)
theorem sget_id (o : Nat) : sgetattr (.v (.obj o)) "id" = (do
    let s ← M.get
    pure (s.app.ids o)) := (rfl)
theorem scall_Permission (i t d : PV) (kw : List (Name × PV)) : scall (.sym "Permission") [i, t, d] kw = (do
    let s ← M.get
    M.modify fun s => { s with nextId := s.nextId + 1, app := { s.app with ids := fun k => if k = s.nextId then i else s.app.ids k } }
    pure (.v (.obj s.nextId))) := (rfl)
theorem sdo_manager (kw : List (Name × PV)) : smethod (.sym "component") "getGlobalSiteManager" [] kw = pure (.sym "getGlobalSiteManager") := (rfl)
theorem sdo_register (o a : Nat) (n : String) (kw : List (Name × PV)) :
    smethod (.sym "getGlobalSiteManager") "registerUtility" [.v (.obj o), .sym "IPermission", .v (.str a n)] kw = (do
      M.modify fun s => { s with app := { s.app with utilities := (n, o) :: s.app.utilities } }
      pure (.v .none)) := (rfl)
end

/-- `pysteps` for the languages of this file. -/
syntax "asteps" ("[" Lean.Parser.Tactic.simpLemma,* "]")? : tactic
macro_rules
  | `(tactic| asteps) => `(tactic| asteps [])
  | `(tactic| asteps [$ts,*]) => `(tactic|
    pysteps [↓aa_final, finished_next, finished_exc, with_next, with_exc, env_next, env_exc,
      adapt_glob, adapt_getattr, adapt_setattr, adapt_getitem, adapt_iter, adapt_call, adapt_method, adapt_same,
      adapt_truth, aglo_ILocation, aglo_LocationProxy, aglo_assertLocation, aglo_remove, aglo_ProxyFactory, aget, aset, aitem_list, aitem_tuple,
      aitem_nolist, aitem_notuple, aiter_list, aiter_tuple, acall_LocationProxy, acall_assertLocation, acall_remove, acall_ProxyFactory,
      ado_factory, ado_protected, ado_unprotected, ado_provided, deco_call, deco_glob, deco_getattr, deco_bin, deco_same, deco_truth,
      deco_raising, ccall_inner, ccall_isinstance, ccall_getChecker, ccall_select, ccall_getattr, ccall_combined, ccall_AttributeError,
      ccall_TypeError, cget_class, cget_name, cmessage, test_glob, test_getattr, test_call, test_method, test_truth, tglo_Principal,
      tglo_Participation, tglo_zope, tglo_create, tglo_body, tget_security, tget_management, tcall_Principal, tcall_create,
      tcall_Participation, tcall_body, tcall_nobody, tdo_query, tdo_end, tdo_new, init_glob, init_getattr, init_setattr, init_method,
      init_same, init_truth, iglo_interface, iglo_interfaces, iget_v, iget_interfaces, iset, ido,
      shop_glob, shop_getattr, shop_call, shop_method, sglo_name, sglo_Permission, sglo_component, sglo_interfaces, sget_interfaces, sget_id,
      scall_Permission, sdo_manager, sdo_register, $ts,*])

end ZS.PyC
