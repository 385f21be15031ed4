import Verif.Props.SourcePermission
import Verif.Props.SourceConfig

/-!
# C81: the source of zcml.py
-/

namespace ZS.Props
open ZS ZS.PyC ZS.Src
variable {β : Type}
set_option maxHeartbeats 1000000

section
variable (f : IdField) (v : PV → M Reading PV)
theorem zl_glob : (zcmlWith f v).glob = zglob := (rfl)
theorem zl_getattr : (zcmlWith f v).getattr = zgetattr := (rfl)
theorem zl_setattr : (zcmlWith f v).setattr = zsetattr := (rfl)
theorem zl_setitem : (zcmlWith f v).setitem = lsetitem := (rfl)
theorem zl_method : (zcmlWith f v).method = zmethod f v := (rfl)
theorem zl_call : (zcmlWith f v).call = zcall := (rfl)
theorem zl_same : (zcmlWith f v).same = PyC.same := (rfl)
theorem zl_compare : (zcmlWith f v).compare = pcompare := (rfl)
theorem zl_truth : (zcmlWith f v).truth = mtruth := (rfl)
theorem zl_newDict : (zcmlWith f v).newDict = lnewDict := (rfl)

theorem zglo_zope_Public : zglob "zope_Public" = pure (.v publicPermission) := (rfl)
theorem zglo_checkPermission : zglob "checkPermission" = pure (.sym "checkPermission") := (rfl)
theorem zglo_setSecurityPolicy : zglob "setSecurityPolicy" = pure (.sym "setSecurityPolicy") := (rfl)
theorem zglo_getattr : zglob "getattr" = pure (.sym "getattr") := (rfl)
theorem zglo_hasattr : zglob "hasattr" = pure (.sym "hasattr") := (rfl)
theorem zglo_utility : zglob "zope.component.zcml.utility" = pure (.sym "zope.component.zcml.utility") := (rfl)
theorem zglo_IPermission : zglob "zope.security.interfaces.IPermission" = pure (.sym "zope.security.interfaces.IPermission") := (rfl)
theorem zglo_Permission : zglob "zope.security.permission.Permission" = pure (.sym "zope.security.permission.Permission") := (rfl)

theorem zget_field : zgetattr (.sym "self") "context" = pure (.sym "_context") := (rfl)
theorem zget_around : zgetattr (.sym "_context") "context" = pure (.sym "context") := (rfl)
theorem zget_mapping : zgetattr (.sym "context") "permission_mapping" = mappingOf := (rfl)
theorem zset_mapping (d : Nat) : zsetattr (.sym "context") "permission_mapping" (.dict d) =
    M.modify fun s => { s with app := { s.app with maps := some d :: s.app.maps.tail } } := (rfl)
theorem zcall_getattr (a : Nat) (d : PV) (kw : List (Name × PV)) :
    zcall (.sym "getattr") [.sym "_context", .v (.str a "permission_mapping"), d] kw = (do
      let s ← M.get
      match mapping? s.app.maps with
      | some d => pure (.dict d)
      | none => pure d) := (rfl)
theorem zcall_hasattr (a : Nat) (kw : List (Name × PV)) :
    zcall (.sym "hasattr") [.sym "context", .v (.str a "permission_mapping")] kw = (do
      let s ← M.get
      pure (.v (.bool (mapping? s.app.maps).isSome))) := (rfl)
theorem zcall_Permission (i t d : PV) (kw : List (Name × PV)) :
    zcall (.sym "zope.security.permission.Permission") [i, t, d] kw = pure (.tuple [i, t, d]) := (rfl)
theorem zcall_utility (i : Name) (o n : PV) :
    zcall (.sym "zope.component.zcml.utility") [.sym "_context", .sym i, o] [("name", n)] =
      unit (M.modify fun s => emit s [[("discriminator", .tuple [strV "utility", .sym i, n]), ("callable", .sym "handler"),
        ("args", .tuple [strV "registerUtility", o, .sym i, n])]]) := (rfl)
theorem zdo_fromUnicode (o : PV) (a : Nat) (r : String) (kw : List (Name × PV)) :
    zmethod f v (.sup o) "fromUnicode" [.v (.str a r)] kw = (do
      let _ ← v (strV (f.strip r))
      pure (strV (f.strip r))) := (rfl)
theorem zdo_validate (o : PV) (a : Nat) (r : String) (kw : List (Name × PV)) :
    zmethod f v (.sup o) "_validate" [.v (.str a r)] kw = if f.valid r then pure (.v .none) else M.throw .configurationError := (rfl)
theorem zdo_action (kw : List (Name × PV)) : zmethod f v (.sym "_context") "action" [] kw = unit (M.modify fun s => emit s [kw]) := (rfl)
theorem zdo_get (d a : Nat) (n : String) (x : Val) (kw : List (Name × PV)) :
    zmethod f v (.dict d) "get" [.v (.str a n), .v x] kw = (do
      let s ← M.get
      pure (.v (((s.dicts d).get? n).getD x))) := (rfl)
theorem zset_item (d a : Nat) (n : String) (x : Val) : (lsetitem (.dict d) (.v (.str a n)) (.v x) : M Reading Unit) =
    M.modify fun s => { s with dicts := fun j => if j = d then (s.dicts d).set n x else s.dicts j } := (rfl)
end

/-- `pysteps` for `zcmlLang`. -/
syntax "zsteps" ("[" Lean.Parser.Tactic.simpLemma,* "]")? : tactic
macro_rules
  | `(tactic| zsteps) => `(tactic| zsteps [])
  | `(tactic| zsteps [$ts,*]) => `(tactic|
    pysteps [↓ea_dict, ↓ea_list, zl_glob, zl_getattr, zl_setattr, zl_setitem, zl_method, zl_call, zl_same, zl_compare, zl_truth, zl_newDict,
      zglo_zope_Public, zglo_checkPermission, zglo_setSecurityPolicy, zglo_getattr, zglo_hasattr, zglo_utility, zglo_IPermission, zglo_Permission,
      zget_field, zget_around, zget_mapping, zset_mapping, zcall_getattr, zcall_hasattr, zcall_Permission, zcall_utility,
      zdo_fromUnicode, zdo_validate, zdo_action, zdo_get, zset_item, mtruth_bool, pcmp_ne, pcmp_eq, $ts,*])

/-- What `_context.action` is to be called with for the actions of zcml.py. -/
def rawCheck (u : String) : Raw :=
  [("discriminator", .v .none), ("callable", .sym "checkPermission"), ("args", .tuple [.v .none, strV u]), ("order", .v (.int 9999999))]

/-- The same for a permission and its title and description. -/
def rawDefine (id title description : String) : Raw :=
  [("discriminator", .tuple [strV "utility", .sym "zope.security.interfaces.IPermission", strV id]), ("callable", .sym "handler"),
   ("args", .tuple [strV "registerUtility", .tuple [strV id, strV title, strV description], .sym "zope.security.interfaces.IPermission", strV id])]

/-- The same for a security policy. -/
def rawPolicy (p : Policy) : Raw :=
  [("discriminator", strV "defaultPolicy"), ("callable", .sym "setSecurityPolicy"), ("args", .tuple [.policy p])]

/-- The actions of a field. -/
def fieldRaw : ZAction → List Raw
  | .check u => [rawCheck u]
  | _ => []

/-- A mapping as a dictionary of values. -/
def mapV (m : PyDict String String) : PyDict Name Val := m.map fun p => (p.1, idVal p.2)

theorem mapV_get (m : PyDict String String) (u : String) : (mapV m).get? u = (m.get? u).map idVal := by
  induction m with
  | nil => rfl
  | cons p r ih =>
    obtain ⟨k, x⟩ := p
    unfold mapV at ih ⊢
    rw [List.map_cons]
    unfold PyDict.get?
    by_cases h : k = u
    · simp [h]
    · simp only [h, if_false]; exact ih

theorem mapV_set (m : PyDict String String) (a b : String) : (mapV m).set a (idVal b) = mapV (m.set a b) := by
  induction m with
  | nil => rfl
  | cons p r ih =>
    obtain ⟨k, x⟩ := p
    unfold mapV at ih ⊢
    rw [List.map_cons]
    unfold PyDict.set
    by_cases h : k = a
    · simp [h]
    · simp only [h, if_false, List.map_cons]; rw [ih]

/-- `Permission._validate` (zcml.py:41-57). -/
theorem z_validate (f : IdField) (w : PV → M Reading PV) (u : String) {k : PV → St Reading → Res β × St Reading} {h : Exn → St Reading → Res β × St Reading} {s : St Reading} :
    fork (run (zcmlWith f w) Zcml.Permission._validate [.sym "self", strV u]) k h s =
      (match validatePermission f ⟨none, []⟩ u with
       | .ok c => k (.v .none) (emit s (c.actions.flatMap fieldRaw))
       | .err e => h e s
       | .diverge => (.diverge, s)) := by
  unfold validatePermission
  by_cases hv : f.valid u = true
  · by_cases hu : u = zopePublic
    · subst hu
      zsteps [Zcml.Permission._validate, strV, hv, publicPermission]
      rw [List.flatMap_nil, emit_nil]
    · zsteps [Zcml.Permission._validate, strV, hv, hu, publicPermission]
      rfl
  · zsteps [Zcml.Permission._validate, strV, hv]

/-- The mapping of the innermost context that has one, as the model has it. -/
def Mapped (s : St Reading) (m : Option (PyDict String String)) : Prop :=
  (mapping? s.app.maps).map (fun d => s.dicts d) = m.map mapV

/-- **C81** `Permission._validate` (zcml.py:41-57): the check that the permission exists is put off to the end, by an action; the public
permission needs none. -/
theorem C81_validate (f : IdField) (u : String) (s : St Reading) :
    run (zcmlLang f) Zcml.Permission._validate [.sym "self", strV u] s =
      (match validatePermission f ⟨none, []⟩ u with
       | .ok c => (.ok (.v .none), emit s (c.actions.flatMap fieldRaw))
       | .err e => (.err e, s)
       | .diverge => (.diverge, s)) := by
  refine fork_run ?_
  exact z_validate f _ u

/-- **C81** `Permission.fromUnicode` (zcml.py:35-39): the id that was written is stripped, validated and then replaced by what it has been
redefined to.  The check is for the id that was written. -/
theorem C81_fromUnicode (f : IdField) (m : Option (PyDict String String)) (raw : String) (s : St Reading) (hm : Mapped s m) (hn : ∀ d, mapping? s.app.maps = some d → d < s.nextId) :
    run (zcmlLang f) Zcml.Permission.fromUnicode [.sym "self", strV raw] s =
      (match permissionFromUnicode f ⟨m, []⟩ raw with
       | .ok (x, c) => (.ok (strV x), afterDict (emit s (c.actions.flatMap fieldRaw)))
       | .err e => (.err e, s)
       | .diverge => (.diverge, s)) := by
  refine fork_run ?_
  unfold permissionFromUnicode zcmlLang
  have hv : validatePermission f ⟨m, []⟩ (f.strip raw) = (match validatePermission f ⟨none, []⟩ (f.strip raw) with
      | .ok c => .ok ⟨m, c.actions⟩
      | .err e => .err e
      | .diverge => .diverge) := by
    unfold validatePermission
    split
    · split <;> rfl
    · rfl
  rw [hv]
  zsteps [Zcml.Permission.fromUnicode, strV]
  rw [← run_eq]
  refine (z_validate f _ (f.strip raw)).trans ?_
  cases hx : validatePermission f ⟨none, []⟩ (f.strip raw) with
  | err e => zsteps; rfl
  | diverge => rfl
  | ok c =>
    zsteps [↓fork_newDict]
    change fork _ _ _ (afterDict (emit s (c.actions.flatMap fieldRaw))) = _
    rw [show (emit s (c.actions.flatMap fieldRaw)).app.maps = s.app.maps from rfl]
    unfold mapPermission
    unfold Mapped at hm
    cases hq : mapping? s.app.maps with
    | none =>
      rw [hq] at hm
      cases m with
      | some m => cases hm
      | none =>
        have h0 : (afterDict (emit s (c.actions.flatMap fieldRaw))).dicts (emit s (c.actions.flatMap fieldRaw)).nextId = [] := by
          unfold afterDict; rw [withDict_self]
        zsteps [h0, PyDict.get?]
        rfl
    | some d =>
      rw [hq] at hm
      cases m with
      | none => cases hm
      | some m =>
        have hd : s.dicts d = mapV m := Option.some.inj hm
        have h0 : (afterDict (emit s (c.actions.flatMap fieldRaw))).dicts d = mapV m := by
          rw [← hd]
          exact if_neg (Nat.ne_of_lt (hn d hq))
        zsteps [h0, mapV_get]
        cases m.get? (f.strip raw) <;> rfl

/-- **C81** `redefinePermission` (zcml.py:119-126): the mapping of the innermost context around that has one is changed, or the context gets one. -/
theorem C81_redefine (f : IdField) (a b : String) (s : St Reading) :
    run (zcmlLang f) Zcml.redefinePermission [.sym "_context", strV a, strV b] s =
      (match mapping? s.app.maps with
       | some d => (.ok (.v .none), withDict s d ((s.dicts d).set a (idVal b)))
       | none => (.ok (.v .none), withDict { afterDict s with app := { s.app with maps := some s.nextId :: s.app.maps.tail } } s.nextId
          [(a, idVal b)])) := by
  refine fork_run ?_
  unfold zcmlLang
  cases hq : mapping? s.app.maps with
  | some d =>
    zsteps [Zcml.redefinePermission, strV, hq, mappingOf, Option.isSome_some]
    rfl
  | none =>
    zsteps [Zcml.redefinePermission, strV, hq, mappingOf, ↓fork_newDict, mapping?, Option.isSome_none]
    rfl

/-- **C81** `securityPolicy` (zcml.py:69-74). -/
theorem C81_securityPolicy (f : IdField) (p : Policy) (s : St Reading) :
    run (zcmlLang f) Zcml.securityPolicy [.sym "_context", .policy p] s = (.ok (.v .none), emit s [rawPolicy p]) := by
  refine fork_run ?_
  unfold zcmlLang
  zsteps [Zcml.securityPolicy, strV]
  rfl

/-- **C81** `permission` (zcml.py:95-102): the permission object has the id it is registered under. -/
theorem C81_permission (f : IdField) (i t d : String) (s : St Reading) :
    run (zcmlLang f) Zcml.permission [.sym "_context", strV i, strV t, strV d] s = (.ok (.v .none), emit s [rawDefine i t d])
    ∧ run (zcmlLang f) Zcml.permission [.sym "_context", strV i, strV t] s = (.ok (.v .none), emit s [rawDefine i t ""]) := by
  constructor <;> refine fork_run ?_ <;> unfold zcmlLang
  · zsteps [Zcml.permission, strV]
    rfl
  · zsteps [Zcml.permission, strV]
    rfl

end ZS.Props
