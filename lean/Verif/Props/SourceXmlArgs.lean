import Verif.Props.SourceXml

/-!
# C86: the arguments that a ZCML file gives to the handlers
-/

namespace ZS.Props
open ZS ZS.PyC ZS.Src ZS.Spec
set_option maxHeartbeats 1000000

/-! ## Fields -/

theorem items_names (F : Fields) (s : St Reading) : ∀ (l : List String), l.all F.identifier = true →
    xitems F "zope.configuration.fields.PythonIdentifier" l s = (.ok (l.map nameV), s)
  | [], _ => rfl
  | t :: r, h => by
    rw [List.all_cons, Bool.and_eq_true] at h
    unfold xitems
    rw [bind_ok (a := nameV t) (s' := s) (by unfold xitem; rw [if_pos rfl, if_pos h.1]; rfl), bind_ok (items_names F s r h.2)]
    rfl

theorem items_interfaces (F : Fields) (s : St Reading) : ∀ (l : List String) (is : List Iface), l.mapM (interfaceIn F) = some is →
    xitems F "zope.configuration.fields.GlobalInterface" l s = (.ok (is.map PV.iface), s)
  | [], is, h => by
    rw [List.mapM_nil] at h
    cases h
    rfl
  | t :: r, is, h => by
    rw [List.mapM_cons] at h
    cases ht : interfaceIn F t with
    | none => rw [ht] at h; cases h
    | some i =>
      cases hr : r.mapM (interfaceIn F) with
      | none => rw [ht, hr] at h; cases h
      | some is' =>
        rw [ht, hr] at h
        cases h
        unfold xitems
        have hx : xitem F "zope.configuration.fields.GlobalInterface" t s = (.ok (.iface i), s) := by
          unfold interfaceIn at ht
          unfold xitem
          rw [if_neg (by decide), if_pos rfl]
          by_cases hs : t = "*"
          · rw [if_pos hs] at ht; cases ht
          · rw [if_neg hs] at ht ⊢
            split at ht
            · rename_i hq; cases ht; rw [hq]; rfl
            · cases ht
        rw [bind_ok hx, bind_ok (items_interfaces F s r is' hr)]
        rfl

theorem pick_none (conv : SField → String → M Reading PV) (a : List (String × String)) (n : Name) (k : String) (i : Option String) (h : a.lookup (attrName n) = none)
    (s : St Reading) : pickArg conv a ⟨n, k, i, false⟩ s = (.ok [], s) := by
  unfold pickArg
  rw [attr_lookup, h]
  rfl

theorem pick_some (conv : SField → String → M Reading PV) (a : List (String × String)) (n : Name) (k : String) (i : Option String) (q : Bool) {t : String}
    (h : a.lookup (attrName n) = some t) {s s' : St Reading} {x : PV} (hx : conv ⟨n, k, i, q⟩ t s = (.ok x, s')) :
    pickArg conv a ⟨n, k, i, q⟩ s = (.ok [(n, x)], s') := by
  unfold pickArg
  rw [attr_lookup, h]
  simp only
  rw [bind_ok hx]
  rfl

theorem pick_wrong (conv : SField → String → M Reading PV) (a : List (String × String)) (n : Name) (k : String) (i : Option String) (q : Bool) {t : String}
    (h : a.lookup (attrName n) = some t) {s s' : St Reading} {e : Exn} (hx : conv ⟨n, k, i, q⟩ t s = (.err e, s')) :
    pickArg conv a ⟨n, k, i, q⟩ s = (.err e, s') := by
  unfold pickArg
  rw [attr_lookup, h]
  simp only
  rw [bind_err hx]

theorem pick_names (F : Fields) (a : List (String × String)) (n : Name) (hn : attrName n = n) {l : List Name} (h : namesIn F (a.lookup n) = some l) :
    ∃ o : Option PV, (o = none ∧ l = [] ∨ o = some (.list (l.map nameV))) ∧ ∀ s,
      pickArg (xconvert F) a ⟨n, "zope.configuration.fields.Tokens", some "zope.configuration.fields.PythonIdentifier", false⟩ s = (.ok (optArg n o), s) := by
  cases hl : a.lookup n with
  | none =>
    rw [hl] at h
    cases h
    exact ⟨none, .inl ⟨rfl, rfl⟩, pick_none _ _ _ _ _ (by rw [hn]; exact hl)⟩
  | some t =>
    rw [hl] at h
    unfold namesIn at h
    simp only at h
    split at h
    · rename_i hall
      cases h
      refine ⟨_, .inr rfl, fun s => pick_some _ _ _ _ _ _ (by rw [hn]; exact hl) ?_⟩
      unfold xconvert
      simp only
      rw [if_neg (by decide), if_neg (by decide), if_neg (by decide), if_neg (by decide), if_pos trivial, bind_ok (items_names F s _ hall)]
      rfl
    · cases h

theorem pick_interfaces (F : Fields) (a : List (String × String)) (n : Name) (hn : attrName n = n) (q : Bool) {l : List Iface} (h : interfacesIn F (a.lookup n) = some l)
    (hq : q = true → (a.lookup n).isSome = true) :
    ∃ o : Option PV, (o = none ∧ l = [] ∧ q = false ∨ o = some (.list (l.map PV.iface))) ∧ ∀ s,
      pickArg (xconvert F) a ⟨n, "zope.configuration.fields.Tokens", some "zope.configuration.fields.GlobalInterface", q⟩ s = (.ok (optArg n o), s) := by
  cases hl : a.lookup n with
  | none =>
    rw [hl] at h hq
    cases h
    cases q with
    | true => cases hq rfl
    | false => exact ⟨none, .inl ⟨rfl, rfl, rfl⟩, pick_none _ _ _ _ _ (by rw [hn]; exact hl)⟩
  | some t =>
    rw [hl] at h
    refine ⟨_, .inr rfl, fun s => pick_some _ _ _ _ _ _ (by rw [hn]; exact hl) ?_⟩
    unfold xconvert
    simp only
    rw [if_neg (by decide), if_neg (by decide), if_neg (by decide), if_neg (by decide), if_pos trivial, bind_ok (items_interfaces F s _ _ h)]
    rfl

theorem convert_object (F : Fields) (n : Name) (q : Bool) {t : String} {x : PV} (h : objectIn F t = some x) (s : St Reading) :
    xconvert F ⟨n, "zope.configuration.fields.GlobalObject", none, q⟩ t s = (.ok x, s) := by
  unfold xconvert
  simp only
  rw [if_neg (by decide), if_neg (by decide), if_neg (by decide), if_pos trivial]
  unfold objectIn at h
  unfold xglobal
  split at h
  · rename_i hs; cases h; rw [if_pos hs]; rfl
  · rename_i hs; rw [if_neg hs, h]; rfl

theorem pick_like (F : Fields) (a : List (String × String)) (n : Name) (hn : attrName n = n) {l : Option Key} (h : likeIn F (a.lookup n) = some l) :
    ∃ o : Option PV, o.getD (.v .none) = keyV l ∧ ∀ s,
      pickArg (xconvert F) a ⟨n, "zope.configuration.fields.GlobalObject", none, false⟩ s = (.ok (optArg n o), s) := by
  cases hl : a.lookup n with
  | none =>
    rw [hl] at h
    cases h
    exact ⟨none, rfl, pick_none _ _ _ _ _ (by rw [hn]; exact hl)⟩
  | some t =>
    rw [hl] at h
    unfold likeIn at h
    simp only at h
    have hp : ∀ x, objectIn F t = some x → ∀ s, pickArg (xconvert F) a ⟨n, "zope.configuration.fields.GlobalObject", none, false⟩ s
        = (.ok (optArg n (some x)), s) := fun x ho s => pick_some _ _ _ _ _ _ (by rw [hn]; exact hl) (convert_object F n false ho s)
    split at h
    · rename_i ho; cases h; exact ⟨_, rfl, hp _ ho⟩
    · rename_i ho; cases h; exact ⟨_, rfl, hp _ ho⟩
    · rename_i ho; cases h; exact ⟨_, rfl, hp _ ho⟩
    · cases h

/-- A permission field among the attributes. -/
theorem pick_permission (F : Fields) (N : Naming) (a : List (String × String)) (n : Name) (q : Bool) {raw : String} (hl : a.lookup (attrName n) = some raw)
    {s : St Reading} {st : List Frame} (hA : Nested s st) :
    match readPermission F.id st raw with
    | .ok (v, l) => ∃ s' R, pickArg (xconvert F) a ⟨n, "zope.security.zcml.Permission", none, q⟩ s = (.ok [(n, .v (idVal v))], s') ∧ Keeps s s'
        ∧ s'.app.actions = s.app.actions ++ R ∧ Paired N l (R.map fun r => (currentPath st, r)) ∧ s'.app.attrs = s.app.attrs
    | .err e => ∃ s', pickArg (xconvert F) a ⟨n, "zope.security.zcml.Permission", none, q⟩ s = (.err e, s')
    | .diverge => False := by
  have h := C81_fromUnicode F.id (inForce st) raw s (around_force hA.around) (fun d hd => hA.older d (mapping_mem hd))
  have hc : ∀ s, xconvert F ⟨n, "zope.security.zcml.Permission", none, q⟩ raw s = run (zcmlLang F.id) Zcml.Permission.fromUnicode [.sym "self", strV raw] s := by
    intro s
    unfold xconvert
    simp only
    rw [if_pos trivial]
  unfold readPermission
  have hx : permissionFromUnicode F.id ⟨inForce st, []⟩ raw ≠ .diverge := by
    unfold permissionFromUnicode validatePermission
    split
    · intro h; cases h
    · intro h; cases h
    · rename_i h
      split at h
      · split at h <;> cases h
      · cases h
  cases hp : permissionFromUnicode F.id ⟨inForce st, []⟩ raw with
  | diverge => exact absurd hp hx
  | err e =>
    rw [hp] at h
    exact ⟨s, pick_wrong _ _ _ _ _ _ hl ((hc s).trans h)⟩
  | ok x =>
    obtain ⟨v, c⟩ := x
    rw [hp] at h
    exact ⟨_, c.actions.flatMap fieldRaw, pick_some _ _ _ _ _ _ hl ((hc s).trans h), (keeps_emit _ _).trans (keeps_afterDict _), rfl, paired_field N _ _, rfl⟩

/-! ## Schemas -/

theorem picks_cons {conv : SField → String → M Reading PV} {a : List (String × String)} {f : SField} {fs : List SField} {s s1 : St Reading}
    {l : List (Name × PV)} (h : pickArg conv a f s = (.ok l, s1)) :
    pickArgs conv a (f :: fs) s = (do let l' ← pickArgs conv a fs; pure (l ++ l') : M Reading _) s1 := by
  conv => lhs; unfold pickArgs
  rw [bind_ok h]

theorem picks_ok {conv : SField → String → M Reading PV} {a : List (String × String)} {f : SField} {fs : List SField} {s s1 s2 : St Reading}
    {l l' : List (Name × PV)} (h : pickArg conv a f s = (.ok l, s1)) (h' : pickArgs conv a fs s1 = (.ok l', s2)) :
    pickArgs conv a (f :: fs) s = (.ok (l ++ l'), s2) := by
  rw [picks_cons h, bind_ok h']
  rfl

theorem picks_nil {conv : SField → String → M Reading PV} {a : List (String × String)} {s : St Reading} : pickArgs conv a [] s = (.ok [], s) := rfl

theorem picks_err {conv : SField → String → M Reading PV} {a : List (String × String)} {f : SField} {fs : List SField} {s s1 : St Reading}
    {e : Exn} (h : pickArg conv a f s = (.err e, s1)) : pickArgs conv a (f :: fs) s = (.err e, s1) := by
  unfold pickArgs
  rw [bind_err h]

theorem picks_err' {conv : SField → String → M Reading PV} {a : List (String × String)} {f : SField} {fs : List SField} {s s1 s2 : St Reading}
    {l : List (Name × PV)} {e : Exn} (h : pickArg conv a f s = (.ok l, s1)) (h' : pickArgs conv a fs s1 = (.err e, s2)) :
    pickArgs conv a (f :: fs) s = (.err e, s2) := by
  rw [picks_cons h, bind_err h']

theorem xargs_only (F : Fields) (schema : String) (fs : List SField) (a : List (String × String)) (hs : schemaOf Src.schemas schema = some fs)
    (h : ∀ p ∈ a, p.1 ∈ fs.map fun f => attrName f.name) (hn : (fs.map fun f => attrName f.name).Nodup) : xargs F schema a = pickArgs (xconvert F) a fs := by
  unfold xargs
  rw [hs]
  exact toargs_only _ _ _ h hn

theorem filled_opt {L : Lang Reading} {kws : List (Name × PV)} {n : Name} {e : Expr} {d : PV} {o : Option PV} {ps : List (Name × Option Expr)} {xs : List PV}
    (h : takeKw n kws = o) (he : eval L e [] = pure d) (hr : Filled L kws ps xs) : Filled L kws ((n, some e) :: ps) (o.getD d :: xs) := by
  cases o with
  | none => exact .default h he hr
  | some x => exact .given h hr

theorem mem_optArg {n : Name} {o : Option PV} {p : Name × PV} : p ∈ optArg n o → p.1 = n := by
  cases o with
  | none => intro h; cases h
  | some x =>
    intro h
    rcases List.mem_cons.mp h with rfl | h
    · rfl
    · cases h

/-- The names of the arguments are among those of the parameters. -/
macro "args_in" : tactic => `(tactic| (
  intro p hp'
  repeat' (rcases List.mem_append.mp hp' with hp' | hp')
  all_goals first
    | (cases hp'; done)
    | (rw [mem_optArg hp']; decide)))

theorem eval_none (L : Lang Reading) : eval L .none [] = pure (.v .none) := by unfold eval; rfl
theorem eval_str (L : Lang Reading) (t : String) : eval L (.str t) [] = pure (strV t) := by unfold eval; rfl
theorem eval_unit (L : Lang Reading) : eval L (.tuple []) [] = pure (.tuple []) := by unfold eval evalArgs; rfl

end ZS.Props
