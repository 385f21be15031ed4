import Verif.Props.SourceXmlArgs

/-!
# C86: a ZCML file configures what it says
-/

namespace ZS.Props
open ZS ZS.PyC ZS.Src ZS.Spec
set_option maxHeartbeats 1000000

/-! ## One step -/

/-- What a step has to lead to, given what the model says of the event. -/
def Step (N : Naming) (fs : List XFrame) (Q : St Reading → Prop) (o : Res (List Frame × List FAction))
    (r : Res (List XFrame × List Placed) × St Reading) : Prop :=
  match o with
  | .ok (st, l) => ∃ s rs, r = (.ok (fs, rs), s) ∧ Nested s st ∧ Paired N l rs ∧ fs.map XFrame.path = st.map Frame.path ∧ Q s
  | .err e => ∃ s, r = (.err e, s)
  | .diverge => False

/-- The same before the actions are taken from the state. -/
def Inner (N : Naming) (path : List String) (fs : List XFrame) (Q : St Reading → Prop) (o : Res (List Frame × List FAction)) (r : Res (List XFrame) × St Reading) : Prop :=
  match o with
  | .ok (st, l) => ∃ s, r = (.ok fs, s) ∧ Nested s st ∧ Paired N l (s.app.actions.map fun r => (path, r)) ∧ fs.map XFrame.path = st.map Frame.path ∧ Q s
  | .err e => ∃ s, r = (.err e, s)
  | .diverge => False

theorem pathOf_head (fs : List XFrame) : pathOf fs = (fs.map XFrame.path).headD [] := by cases fs <;> rfl

theorem path_same {fs : List XFrame} {st : List Frame} (h : fs.map XFrame.path = st.map Frame.path) : pathOf fs = currentPath st := by
  rw [pathOf_head, h, path_head]

/-- The state with no actions. -/
abbrev cleared (s : St Reading) : St Reading := { s with app := { s.app with actions := [] } }

theorem step_placing {N : Naming} {fs fs' : List XFrame} {Q : St Reading → Prop} {o : Res (List Frame × List FAction)} {x : M Reading (List XFrame)} {s : St Reading}
    (h : Inner N (pathOf fs) fs' Q o (x (cleared s))) : Step N fs' Q o (placing fs x s) := by
  have hp : placing fs x s = (do
      let fs' ← x
      let s ← M.get
      pure (fs', s.app.actions.map fun a => (pathOf fs, a)) : M Reading _) (cleared s) := by
    unfold placing
    exact bind_ok (a := ()) (s' := cleared s) rfl
  rw [hp]
  unfold Inner at h
  unfold Step
  cases o with
  | diverge => exact h
  | err e =>
    obtain ⟨s1, h1⟩ := h
    exact ⟨s1, bind_err h1⟩
  | ok y =>
    obtain ⟨st, l⟩ := y
    obtain ⟨s1, h1, h2, h3, h4, h5⟩ := h
    exact ⟨s1, _, (bind_ok h1).trans rfl, h2, h3, h4, h5⟩

/-! ## Handlers -/

/-- Calling a handler that emits the actions of a directive. -/
theorem inner_directive {N : Naming} {fs : List XFrame} {st : List Frame} {Q : St Reading → Prop} (d : Directive) {call : M Reading PV} {s s' : St Reading}
    (hc : call s = (endOf (emitDirective d).2, s')) (ha : s'.app.actions = s.app.actions ++ (emitDirective d).1.map (rawOf N)) (hk : Keeps s s') (hQ : Q s')
    (hA : Nested s st) (hp : fs.map XFrame.path = st.map Frame.path) {l : List FAction}
    (hl : Paired N l (s.app.actions.map fun r => (currentPath st, r))) :
    Inner N (currentPath st) fs Q (match emitIn (currentPath st) d with
      | .ok l' => .ok (st, l ++ l')
      | .err e => .err e
      | .diverge => .diverge) ((do let _ ← call; pure fs : M Reading (List XFrame)) s) := by
  unfold emitIn
  cases he : (emitDirective d).2 with
  | some e =>
    rw [he] at hc
    exact ⟨s', bind_err hc⟩
  | none =>
    rw [he] at hc
    refine ⟨s', (bind_ok hc).trans rfl, hA.keeps hk, ?_, hp, hQ⟩
    rw [ha, List.map_append]
    exact paired_append hl (paired_declare N _ _)

/-- A method that emits the actions of a directive. -/
theorem inner_method {N : Naming} {fs : List XFrame} {st : List Frame} {t : String} (sub : Sub) {call : M Reading PV} {s : St Reading} (hh : Handles t s)
    (hc : call s = fork call okK errK s) (hr : fork call okK errK s = ended okK errK N s (emitSub (.ty t) sub))
    (hA : Nested s st) (hp : fs.map XFrame.path = st.map Frame.path) {l : List FAction}
    (hl : Paired N l (s.app.actions.map fun r => (currentPath st, r))) :
    Inner N (currentPath st) fs (Handles t) (match emitIn (currentPath st) (.cls t sub) with
      | .ok l' => .ok (st, l ++ l')
      | .err e => .err e
      | .diverge => .diverge) ((do let _ ← call; pure fs : M Reading (List XFrame)) s) := by
  rw [ended_ok] at hr
  exact inner_directive (.cls t sub) (hc.trans hr) rfl (keeps_emit _ _) (hh.emit _) hA hp hl

theorem listArg_names {o : Option PV} {l : List Name} (h : o = none ∧ l = [] ∨ o = some (.list (l.map nameV))) : ListArg nameV l (o.getD (.v .none)) := by
  rcases h with ⟨rfl, rfl⟩ | rfl
  · exact .none
  · exact .list _

theorem listArg_interfaces {q : Bool} {o : Option PV} {l : List Iface} (h : o = none ∧ l = [] ∧ q = false ∨ o = some (.list (l.map PV.iface))) :
    ListArg ifaceV (l.map some) (o.getD (.v .none)) := by
  rcases h with ⟨rfl, rfl, _⟩ | rfl
  · exact .none
  · rw [show l.map PV.iface = (l.map some).map ifaceV by rw [List.map_map]; rfl]
    exact .list _

theorem miter_names {o : Option PV} {l : List Name} (h : o = none ∧ l = [] ∨ o = some (.list (l.map nameV))) : miter (o.getD (.tuple [])) = pure (l.map nameV) := by
  rcases h with ⟨rfl, rfl⟩ | rfl <;> rfl

theorem miter_interfaces {q : Bool} {o : Option PV} {l : List Iface} (h : o = none ∧ l = [] ∧ q = false ∨ o = some (.list (l.map PV.iface))) :
    miter (o.getD (.tuple [])) = pure (l.map PV.iface) := by
  rcases h with ⟨rfl, rfl, _⟩ | rfl <;> rfl

/-! ## The elements inside `class` -/

/-- `class` in meta.zcml. -/
abbrev classDef : XDef := ⟨zopeNs, "class", "zope.security.metadirectives.IClassDirective", "zope.security.metaconfigure.ClassDirective",
  .complex [("implements", "zope.security.metadirectives.IImplementsSubdirective"), ("require", "zope.security.metadirectives.IRequireSubdirective"),
    ("allow", "zope.security.metadirectives.IAllowSubdirective"), ("factory", "zope.security.metadirectives.IFactorySubdirective")]⟩

theorem method_run (N : Naming) (m : Name) (f : Fn) (pos : List PV) (hm : fnOf Metaconfigure.ClassDirective.methods m = some f) (kws : List (Name × PV)) :
    xmethod N "zope.security.metaconfigure.ClassDirective" m pos kws = runIn (metaLang N 4) f [] (.sym "self" :: pos) kws := by
  unfold xmethod handlerClass
  rw [if_pos rfl]
  simp only [hm]

theorem step_implements (F : Fields) (N : Naming) (t : String) (a : List (String × String)) (e : Ev) (he : implementsEvent F t a = some e)
    {s : St Reading} {st : List Frame} {fs : List XFrame} (hA : Nested s st) (hp : fs.map XFrame.path = st.map Frame.path) (hh : Handles t s) :
    Step N fs (Handles t) (readEv F.id st e) (runTok F N fs (.sub classDef "zope.security.metadirectives.IImplementsSubdirective" "implements" a) s) := by
  unfold implementsEvent at he
  split at he
  · rename_i hno
    cases hy : interfacesIn F (a.lookup "interface") with
    | none => rw [hy] at he; cases he
    | some y =>
      rw [hy] at he
      cases he
      obtain ⟨o, ho, hk⟩ := pick_interfaces F a "interface" (by decide) true hy (fun _ => hno.2)
      rcases ho with ⟨_, _, h⟩ | rfl
      · cases h
      unfold runTok
      have hc : Handles t (cleared s) := ⟨hh.1, hh.2⟩
      refine step_placing ?_
      rw [path_same hp]
      have hx : xargs F "zope.security.metadirectives.IImplementsSubdirective" a (cleared s) = (.ok (optArg "interface" (some (.list (y.map PV.iface)))), cleared s) := by
        rw [xargs_only F _ Src.IImplementsSubdirective a (by decide) hno.1 (by decide)]
        exact picks_ok (hk _) picks_nil
      rw [bind_ok hx, method_run N "implements" Metaconfigure.ClassDirective.implements _ rfl]
      rw [run_filled (metaLang N 4) _ [("self", none), ("_context", none)] [("interface", none)] rfl [.sym "self", .sym "_context"] rfl
        (.given rfl .nil) (by args_in) (by decide)]
      exact inner_method (.implements y) hc (asFork _ _) (m_implements N 4 hc y rfl) (hA.keeps (keeps_clear s)) hp (paired_nil N)
  · cases he

theorem step_allow (F : Fields) (N : Naming) (t : String) (a : List (String × String)) (e : Ev) (he : allowEvent F t a = some e)
    {s : St Reading} {st : List Frame} {fs : List XFrame} (hA : Nested s st) (hp : fs.map XFrame.path = st.map Frame.path) (hh : Handles t s) :
    Step N fs (Handles t) (readEv F.id st e) (runTok F N fs (.sub classDef "zope.security.metadirectives.IAllowSubdirective" "allow" a) s) := by
  unfold allowEvent at he
  split at he
  · rename_i hno
    cases hx : namesIn F (a.lookup "attributes") with
    | none => rw [hx] at he; cases he
    | some x =>
      cases hy : interfacesIn F (a.lookup "interface") with
      | none => rw [hx, hy] at he; cases he
      | some y =>
        rw [hx, hy] at he
        cases he
        obtain ⟨o1, ho1, hk1⟩ := pick_names F a "attributes" (by decide) hx
        obtain ⟨o2, ho2, hk2⟩ := pick_interfaces F a "interface" (by decide) false hy (fun h => by cases h)
        unfold runTok
        have hc : Handles t (cleared s) := ⟨hh.1, hh.2⟩
        refine step_placing ?_
        rw [path_same hp]
        have hx : xargs F "zope.security.metadirectives.IAllowSubdirective" a (cleared s) = (.ok (optArg "attributes" o1 ++ (optArg "interface" o2 ++ [])), cleared s) := by
          rw [xargs_only F _ Src.IAllowSubdirective a (by decide) hno (by decide)]
          exact picks_ok (hk1 _) (picks_ok (hk2 _) picks_nil)
        rw [bind_ok hx, method_run N "allow" Metaconfigure.ClassDirective.allow _ rfl]
        rw [run_filled (metaLang N 4) Metaconfigure.ClassDirective.allow [("self", none), ("_context", none)] [("attributes", some .none), ("interface", some .none)] rfl [.sym "self", .sym "_context"] rfl
          (filled_opt (o := o1) (by simp [takeKw_append, takeKw_opt]) (eval_none _)
            (filled_opt (o := o2) (by simp [takeKw_append, takeKw_opt]) (eval_none _) .nil)) (by args_in) (by decide)]
        exact inner_method (.allow x (y.map some)) hc (asFork _ _)
          (m_allow N 1 hc x (y.map some) (listArg_names ho1) (listArg_interfaces ho2)) (hA.keeps (keeps_clear s)) hp (paired_nil N)
  · cases he

theorem step_require (F : Fields) (N : Naming) (t : String) (a : List (String × String)) (e : Ev) (he : requireEvent F t a = some e)
    {s : St Reading} {st : List Frame} {fs : List XFrame} (hA : Nested s st) (hp : fs.map XFrame.path = st.map Frame.path) (hh : Handles t s) :
    Step N fs (Handles t) (readEv F.id st e) (runTok F N fs (.sub classDef "zope.security.metadirectives.IRequireSubdirective" "require" a) s) := by
  unfold requireEvent at he
  split at he
  · rename_i hno
    cases hx : namesIn F (a.lookup "attributes") with
    | none => simp only [hx] at he; cases he
    | some x =>
    cases hy : interfacesIn F (a.lookup "interface") with
    | none => simp only [hx, hy] at he; cases he
    | some y =>
    cases hlk : likeIn F (a.lookup "like_class") with
    | none => simp only [hx, hy, hlk] at he; cases he
    | some l =>
    cases hz : namesIn F (a.lookup "set_attributes") with
    | none => simp only [hx, hy, hlk, hz] at he; cases he
    | some z =>
    cases hw : interfacesIn F (a.lookup "set_schema") with
    | none => simp only [hx, hy, hlk, hz, hw] at he; cases he
    | some w =>
      simp only [hx, hy, hlk, hz, hw] at he
      cases he
      obtain ⟨o1, ho1, hk1⟩ := pick_names F a "attributes" (by decide) hx
      obtain ⟨o2, ho2, hk2⟩ := pick_names F a "set_attributes" (by decide) hz
      obtain ⟨o3, ho3, hk3⟩ := pick_interfaces F a "interface" (by decide) false hy (fun h => by cases h)
      obtain ⟨o4, ho4, hk4⟩ := pick_interfaces F a "set_schema" (by decide) false hw (fun h => by cases h)
      obtain ⟨o5, ho5, hk5⟩ := pick_like F a "like_class" (by decide) hlk
      have hc : Handles t (cleared s) := ⟨hh.1, hh.2⟩
      have hAc := hA.keeps (keeps_clear s)
      have hcall : ∀ o0 : Option PV, xmethod N classDef.handler "require" [.sym "_context"] (optArg "permission" o0 ++ (optArg "attributes" o1
          ++ (optArg "set_attributes" o2 ++ (optArg "interface" o3 ++ (optArg "set_schema" o4 ++ (optArg "like_class" o5 ++ []))))))
          = run (metaLang N 4) Metaconfigure.ClassDirective.require [.sym "self", .sym "_context", o0.getD (.v .none), o1.getD (.v .none), o3.getD (.v .none),
            o5.getD (.v .none), o2.getD (.v .none), o4.getD (.v .none)] := by
        intro o0
        rw [method_run N "require" Metaconfigure.ClassDirective.require _ rfl]
        exact run_filled (metaLang N 4) Metaconfigure.ClassDirective.require [("self", none), ("_context", none)] [("permission", some .none), ("attributes", some .none),
          ("interface", some .none), ("like_class", some .none), ("set_attributes", some .none), ("set_schema", some .none)] rfl [.sym "self", .sym "_context"] rfl
          (filled_opt (o := o0) (by simp [takeKw_append, takeKw_opt]) (eval_none _) (filled_opt (o := o1) (by simp [takeKw_append, takeKw_opt]) (eval_none _)
            (filled_opt (o := o3) (by simp [takeKw_append, takeKw_opt]) (eval_none _) (filled_opt (o := o5) (by simp [takeKw_append, takeKw_opt]) (eval_none _)
            (filled_opt (o := o2) (by simp [takeKw_append, takeKw_opt]) (eval_none _) (filled_opt (o := o4) (by simp [takeKw_append, takeKw_opt]) (eval_none _) .nil))))))
          (by args_in) (by decide)
      have hrest : ∀ s1 : St Reading, pickArgs (xconvert F) a
          [⟨"attributes", "zope.configuration.fields.Tokens", some "zope.configuration.fields.PythonIdentifier", false⟩,
           ⟨"set_attributes", "zope.configuration.fields.Tokens", some "zope.configuration.fields.PythonIdentifier", false⟩,
           ⟨"interface", "zope.configuration.fields.Tokens", some "zope.configuration.fields.GlobalInterface", false⟩,
           ⟨"set_schema", "zope.configuration.fields.Tokens", some "zope.configuration.fields.GlobalInterface", false⟩,
           ⟨"like_class", "zope.configuration.fields.GlobalObject", none, false⟩] s1 = (.ok (optArg "attributes" o1
          ++ (optArg "set_attributes" o2 ++ (optArg "interface" o3 ++ (optArg "set_schema" o4 ++ (optArg "like_class" o5 ++ []))))), s1) := fun s1 =>
        picks_ok (hk1 _) (picks_ok (hk2 _) (picks_ok (hk3 _) (picks_ok (hk4 _) (picks_ok (hk5 _) picks_nil))))
      unfold runTok
      refine step_placing ?_
      rw [path_same hp, xargs_only F _ Src.IRequireSubdirective a (by decide) hno (by decide)]
      unfold Src.IRequireSubdirective
      cases hl : a.lookup "permission" with
      | none =>
        have h0 : pickArg (xconvert F) a ⟨"permission", "zope.security.zcml.Permission", none, false⟩ (cleared s) = (.ok (optArg "permission" none), cleared s) :=
          pick_none (xconvert F) a "permission" "zope.security.zcml.Permission" none hl (cleared s)
        rw [bind_ok (picks_ok h0 (hrest _)), hcall none]
        exact inner_method (.require ⟨.none, x, y.map some, l, z, w.map some⟩) hc (asFork _ _)
          (m_require N 2 hc ⟨.none, x, y.map some, l, z, w.map some⟩ trivial
            ⟨listArg_names ho1, listArg_interfaces ho3, ho5, listArg_names ho2, listArg_interfaces ho4⟩) hAc hp (paired_nil N)
      | some raw =>
        have h0 := pick_permission F N a "permission" false hl hAc
        unfold readEv readDirective
        simp only
        cases hq : readPermission F.id st raw with
        | diverge => rw [hq] at h0; exact h0.elim
        | err e =>
          rw [hq] at h0
          obtain ⟨s', h0⟩ := h0
          exact ⟨s', bind_err (picks_err h0)⟩
        | ok v =>
          obtain ⟨v, l0⟩ := v
          rw [hq] at h0
          obtain ⟨s', R, h0, h1, h2, h3, h4⟩ := h0
          have hc' : Handles t s' := ⟨h4 ▸ hc.1, h4 ▸ hc.2⟩
          rw [bind_ok (picks_ok h0 (hrest _)), show [("permission", PV.v (idVal v))] = optArg "permission" (some (.v (idVal v))) from rfl, hcall (some (.v (idVal v)))]
          exact inner_method (.require ⟨idVal v, x, y.map some, l, z, w.map some⟩) hc' (asFork _ _)
            (m_require N 2 hc' ⟨idVal v, x, y.map some, l, z, w.map some⟩ trivial
              ⟨listArg_names ho1, listArg_interfaces ho3, ho5, listArg_names ho2, listArg_interfaces ho4⟩) (hAc.keeps h1) hp (by rw [h2]; exact h3)
  · cases he

/-! ## `class` and `module` -/

/-- `module` in meta.zcml. -/
abbrev moduleDef : XDef := ⟨zopeNs, "module", "zope.security.metadirectives.IModule", "zope.configuration.config.GroupingContextDecorator", .grouping⟩

/-- `class`: the handler is made. -/
theorem step_class (F : Fields) (N : Naming) (t : String) (a : List (String × String)) (hno : NoOther ["class"] a) (hc : classIn F (a.lookup "class") = some t)
    {s : St Reading} {st : List Frame} {fs : List XFrame} (hA : Nested s st) (hp : fs.map XFrame.path = st.map Frame.path) :
    Step N fs (Handles t) (.ok (st, [])) (runTok F N fs (.complex classDef a) s) := by
  unfold classIn at hc
  cases hl : a.lookup "class" with
  | none => rw [hl] at hc; cases hc
  | some x =>
    rw [hl] at hc
    simp only at hc
    have ho : objectIn F x = some (.v (.type t)) := by
      split at hc
      · rename_i h; cases hc; exact h
      · cases hc
    unfold runTok
    refine step_placing ?_
    have hx : xargs F classDef.schema a (cleared s) = (.ok (optArg "class_" (some (.v (.type t)))), cleared s) := by
      rw [xargs_only F _ Src.IClassDirective a (by decide) hno (by decide)]
      exact picks_ok (pick_some _ a "class_" _ _ _ hl (convert_object F _ _ ho _)) picks_nil
    rw [bind_ok hx, method_run N "__init__" Metaconfigure.ClassDirective.__init__ _ rfl]
    rw [run_filled (metaLang N 4) Metaconfigure.ClassDirective.__init__ [("self", none), ("_context", none)] [("class_", none)] rfl
      [.sym "self", .sym "_context"] rfl (.given rfl .nil) (by args_in) (by decide)]
    have hr : run (metaLang N 4) Metaconfigure.ClassDirective.__init__ [.sym "self", .sym "_context", .v (.type t)] (cleared s) = _ := fork_run (m_init N 3)
    refine ⟨_, (bind_ok hr).trans rfl, ?_, paired_nil N, hp, ⟨rfl, rfl⟩⟩
    exact hA.keeps ⟨rfl, fun _ _ => rfl, Nat.le_refl _⟩

/-- The end of `class`. -/
theorem step_done (F : Fields) (N : Naming) {s : St Reading} {st : List Frame} {fs : List XFrame} (hA : Nested s st) (hp : fs.map XFrame.path = st.map Frame.path) :
    Step N fs (fun _ => True) (.ok (st, [])) (runTok F N fs (.done classDef) s) := by
  unfold runTok
  refine step_placing ?_
  rw [method_run N "__call__" Metaconfigure.ClassDirective.__call__ _ rfl]
  have hr : runIn (metaLang N 4) Metaconfigure.ClassDirective.__call__ [] [.sym "self"] [] (cleared s) = (.ok (.tuple []), cleared s) := by
    refine fork_run ?_
    msteps [Metaconfigure.ClassDirective.__call__]
    rfl
  refine ⟨cleared s, (bind_ok hr).trans rfl, hA.keeps (keeps_clear s), paired_nil N, hp, trivial⟩

/-- The contexts with one more. -/
theorem nested_push {s : St Reading} {st : List Frame} (hA : Nested s st) (path : List String) :
    Nested { s with app := { s.app with maps := none :: s.app.maps } } (⟨none, path⟩ :: st) := by
  refine ⟨⟨rfl, around_congr (s := s) (fun _ _ => rfl) hA.around⟩, ?_, hA.apart⟩
  intro d hd
  rcases List.mem_cons.mp hd with h | hd
  · cases h
  · exact hA.older d hd

/-- The contexts with one less. -/
theorem nested_pop {s : St Reading} {c : Frame} {st : List Frame} (hA : Nested s (c :: st)) : Nested { s with app := { s.app with maps := s.app.maps.tail } } st := by
  have hr := hA.around
  have ho := hA.older
  have hn := hA.apart
  cases hm : s.app.maps with
  | nil => rw [hm] at hr; exact hr.elim
  | cons o ms =>
    rw [hm] at hr ho hn
    refine ⟨around_congr (s := s) (fun _ _ => rfl) hr.2, fun d hd => ho d (List.mem_cons_of_mem _ hd), ?_⟩
    cases o with
    | none => exact hn
    | some d =>
      rw [List.filterMap_cons] at hn
      exact (List.nodup_cons.mp hn).2

theorem step_enter (F : Fields) (N : Naming) (file : Option String) {s : St Reading} {st : List Frame} {fs : List XFrame} (hA : Nested s st)
    (hp : fs.map XFrame.path = st.map Frame.path) :
    Step N (⟨pathOf fs ++ file.toList, none⟩ :: fs) (fun _ => True) (readEv F.id st (.enter file)) (runTok F N fs (.enter file) s) := by
  unfold runTok
  refine step_placing ?_
  refine ⟨_, rfl, nested_push (hA.keeps (keeps_clear s)) _, paired_nil N, ?_, trivial⟩
  rw [List.map_cons, List.map_cons, hp, path_same hp]

theorem step_leave (F : Fields) (N : Naming) {s : St Reading} {st : List Frame} {c : XFrame} {fs : List XFrame} (hf : fs ≠ []) (hA : Nested s st)
    (hp : (c :: fs).map XFrame.path = st.map Frame.path) :
    Step N fs (fun _ => True) (readEv F.id st .leave) (runTok F N (c :: fs) .leave s) := by
  match fs, hf, st, hp, hA with
  | _, _, [], hp, _ => cases hp
  | [], hf, _, _, _ => exact absurd rfl hf
  | _ :: _, _, [_], hp, _ => exact absurd (List.cons.inj hp).2 (by simp)
  | c' :: fs, _, d :: d' :: st, hp, hA =>
    unfold runTok
    refine step_placing ?_
    refine ⟨_, rfl, nested_pop (hA.keeps (keeps_clear s)), paired_nil N, ?_, trivial⟩
    exact (List.cons.inj hp).2

theorem step_module (F : Fields) (N : Naming) (m : String) (a : List (String × String)) (hno : NoOther ["module"] a) (hc : moduleIn F (a.lookup "module") = some m)
    {s : St Reading} {st : List Frame} {fs : List XFrame} (hA : Nested s st) (hp : fs.map XFrame.path = st.map Frame.path) :
    Step N (⟨pathOf fs, some (.v (.module m))⟩ :: fs) (fun _ => True) (readEv F.id st (.enter none)) (runTok F N fs (.group moduleDef a) s) := by
  unfold moduleIn at hc
  cases hl : a.lookup "module" with
  | none => rw [hl] at hc; cases hc
  | some x =>
    rw [hl] at hc
    simp only at hc
    have ho : objectIn F x = some (.v (.module m)) := by
      split at hc
      · rename_i h; cases hc; exact h
      · cases hc
    unfold runTok
    refine step_placing ?_
    have hx : xargs F moduleDef.schema a (cleared s) = (.ok [("module", .v (.module m))], cleared s) := by
      rw [xargs_only F _ Src.IModule a (by decide) hno (by decide)]
      exact picks_ok (pick_some _ a "module" _ _ _ hl (convert_object F _ _ ho _)) picks_nil
    rw [bind_ok hx, if_pos rfl]
    refine ⟨_, rfl, nested_push (hA.keeps (keeps_clear s)) _, paired_nil N, ?_, trivial⟩
    rw [List.map_cons, List.map_cons, hp, path_same hp]
    simp

/-! ## Directives with nothing inside -/

/-- The others in meta.zcml. -/
abbrev permissionDef : XDef := ⟨zopeNs, "permission", "zope.security.zcml.IPermissionDirective", "zope.security.zcml.permission", .simple⟩
/-- `securityPolicy`. -/
abbrev policyDef : XDef := ⟨zopeNs, "securityPolicy", "zope.security.zcml.ISecurityPolicyDirective", "zope.security.zcml.securityPolicy", .simple⟩
/-- `redefinePermission`. -/
abbrev redefineDef : XDef := ⟨metaNs, "redefinePermission", "zope.security.zcml.IRedefinePermission", "zope.security.zcml.redefinePermission", .simple⟩
/-- `allow` about a module. -/
abbrev allowDef : XDef := ⟨zopeNs, "allow", "zope.security.metadirectives.IAllow", "zope.security.metaconfigure.allow", .simple⟩
/-- `require` about a module. -/
abbrev requireDef : XDef := ⟨zopeNs, "require", "zope.security.metadirectives.IRequire", "zope.security.metaconfigure.require", .simple⟩

theorem zcml_call (F : Fields) (N : Naming) (fs : List XFrame) (h : String) (f : Fn) (hf : fnOf zcmlFns h = some f) (kws : List (Name × PV)) :
    xcall F N fs h kws = runIn (zcmlLang F.id) f [] [.sym "_context"] kws := by
  unfold xcall
  simp only [hf]

theorem mod_call (F : Fields) (N : Naming) (fs : List XFrame) (h : String) (f : Fn) (hz : fnOf zcmlFns h = none) (hf : fnOf modFns h = some f) {m : String}
    (hm : moduleOf fs = some (.v (.module m))) (kws : List (Name × PV)) :
    xcall F N fs h kws = runIn (metaLang { N with module := .module m } 4) f [] [.sym "_context"] kws := by
  unfold xcall modLang
  simp only [hz, hf, hm]

theorem convert_message (F : Fields) (n : Name) (q : Bool) (t : String) (s : St Reading) :
    xconvert F ⟨n, "zope.configuration.fields.MessageID", none, q⟩ t s = (.ok (strV (F.message t)), s) := by
  unfold xconvert
  simp only
  rw [if_neg (by decide), if_neg (by decide), if_pos trivial]
  rfl

theorem convert_id (F : Fields) (n : Name) (q : Bool) (t : String) (s : St Reading) :
    xconvert F ⟨n, "zope.schema.Id", none, q⟩ t s
      = if F.id.valid (F.id.strip t) = true then (.ok (strV (F.id.strip t)), s) else (.err .configurationError, s) := by
  unfold xconvert
  simp only
  rw [if_neg (by decide), if_pos trivial]
  split <;> rfl

theorem step_permission (F : Fields) (N : Naming) (a : List (String × String)) (e : Ev) (he : permissionEvent a = some e)
    {s : St Reading} {st : List Frame} {fs : List XFrame} (hA : Nested s st) (hp : fs.map XFrame.path = st.map Frame.path) :
    Step N fs (fun _ => True) (readEv F.id st e) (runTok F N fs (.simple permissionDef a) s) := by
  unfold permissionEvent at he
  split at he
  · rename_i hno
    cases hi : a.lookup "id" with
    | none => rw [hi] at he; cases he
    | some i =>
      cases ht : a.lookup "title" with
      | none => rw [hi, ht] at he; cases he
      | some ti =>
        rw [hi, ht] at he
        cases he
        have hAc := hA.keeps (keeps_clear s)
        unfold runTok
        refine step_placing ?_
        rw [xargs_only F _ Src.IPermissionDirective a (by decide) hno (by decide), path_same hp]
        unfold readEv
        have hc := convert_id F "id" true i (cleared s)
        simp only
        split
        · rename_i hv
          rw [if_pos hv] at hc
          obtain ⟨o, ho⟩ : ∃ o : Option String, pickArg (xconvert F) a ⟨"description", "zope.configuration.fields.MessageID", none, false⟩ (cleared s)
              = (.ok (optArg "description" (o.map strV)), cleared s) := by
            cases hd : a.lookup "description" with
            | none => exact ⟨none, pick_none _ a "description" _ _ hd _⟩
            | some d => exact ⟨some (F.message d), pick_some _ a "description" _ _ _ hd (convert_message F _ _ d _)⟩
          have h1 : pickArgs (xconvert F) a Src.IPermissionDirective (cleared s) = (.ok (optArg "id" (some (strV (F.id.strip i)))
              ++ (optArg "title" (some (strV (F.message ti))) ++ (optArg "description" (o.map strV) ++ []))), cleared s) :=
            picks_ok (pick_some _ a "id" _ _ _ hi hc) (picks_ok (pick_some _ a "title" _ _ _ ht (convert_message F _ _ ti _)) (picks_ok ho picks_nil))
          rw [bind_ok h1, zcml_call F N fs _ Zcml.permission rfl]
          rw [run_filled (zcmlLang F.id) Zcml.permission [("_context", none)] [("id", none), ("title", none), ("description", some (.str ""))] rfl [.sym "_context"] rfl
            (.given rfl (.given (x := strV (F.message ti)) (by simp [takeKw_append, takeKw_opt]) (filled_opt (o := o.map strV) (by simp [takeKw_append, takeKw_opt]) (eval_str _ _) .nil)))
            (by args_in) (by decide)]
          have hr : ∃ d, run (zcmlLang F.id) Zcml.permission ([.sym "_context"] ++ [strV (F.id.strip i), strV (F.message ti), (o.map strV).getD (strV "")]) (cleared s)
              = (.ok (.v .none), emit (cleared s) [rawDefine (F.id.strip i) (F.message ti) d]) := by
            cases o with
            | none => exact ⟨_, (C81_permission F.id (F.id.strip i) (F.message ti) "" (cleared s)).1⟩
            | some d => exact ⟨_, (C81_permission F.id (F.id.strip i) (F.message ti) d (cleared s)).1⟩
          obtain ⟨d, hr⟩ := hr
          exact ⟨_, (bind_ok hr).trans rfl, hAc.keeps (keeps_emit _ _), paired_one .define, hp, trivial⟩
        · rename_i hv
          rw [if_neg hv] at hc
          exact ⟨_, bind_err (picks_err (pick_wrong _ a "id" _ _ _ hi hc))⟩
  · cases he

theorem step_policy (F : Fields) (N : Naming) (a : List (String × String)) (e : Ev) (he : policyEvent F a = some e)
    {s : St Reading} {st : List Frame} {fs : List XFrame} (hA : Nested s st) (hp : fs.map XFrame.path = st.map Frame.path) :
    Step N fs (fun _ => True) (readEv F.id st e) (runTok F N fs (.simple policyDef a) s) := by
  unfold policyEvent at he
  split at he
  · rename_i hno
    cases hl : a.lookup "component" with
    | none => rw [hl] at he; cases he
    | some x =>
      rw [hl] at he
      unfold policyIn at he
      simp only at he
      split at he
      · rename_i p ho
        cases he
        have ho : objectIn F x = some (.policy p) := by
          split at ho
          · rename_i h; cases ho; exact h
          · cases ho
        unfold runTok
        refine step_placing ?_
        rw [xargs_only F _ Src.ISecurityPolicyDirective a (by decide) hno (by decide), path_same hp]
        have h1 : pickArgs (xconvert F) a Src.ISecurityPolicyDirective (cleared s) = (.ok (optArg "component" (some (.policy p)) ++ []), cleared s) :=
          picks_ok (pick_some _ a "component" _ _ _ hl (convert_object F _ _ ho _)) picks_nil
        rw [bind_ok h1, zcml_call F N fs _ Zcml.securityPolicy rfl]
        rw [run_filled (zcmlLang F.id) Zcml.securityPolicy [("_context", none)] [("component", none)] rfl [.sym "_context"] rfl
            (.given rfl .nil) (by args_in) (by decide)]
        exact ⟨_, (bind_ok (C81_securityPolicy F.id p (cleared s))).trans rfl, (hA.keeps (keeps_clear s)).keeps (keeps_emit _ _), paired_one .policy, hp, trivial⟩
      · cases he
  · cases he

theorem redefine_path (a b : String) (st : List Frame) : (redefineAt a b st).map Frame.path = st.map Frame.path := by
  have hin : ∀ st : List Frame, (redefineIn a b st).map Frame.path = st.map Frame.path := by
    intro st
    induction st with
    | nil => rfl
    | cons c r ih =>
      unfold redefineIn
      cases c.mapping with
      | none => exact congrArg (c.path :: ·) ih
      | some m => rfl
  unfold redefineAt
  cases inForce st with
  | some m => exact hin st
  | none => cases st <;> rfl

theorem step_redefine (F : Fields) (N : Naming) (a : List (String × String)) (e : Ev) (he : redefineEvent a = some e)
    {s : St Reading} {st : List Frame} {fs : List XFrame} (hA : Nested s st) (hst : st ≠ []) (hp : fs.map XFrame.path = st.map Frame.path) :
    Step N fs (fun _ => True) (readEv F.id st e) (runTok F N fs (.simple redefineDef a) s) := by
  unfold redefineEvent at he
  split at he
  · rename_i hno
    cases hx : a.lookup "from" with
    | none => rw [hx] at he; cases he
    | some x =>
      cases hy : a.lookup "to" with
      | none => rw [hx, hy] at he; cases he
      | some y =>
        rw [hx, hy] at he
        cases he
        have hAc := hA.keeps (keeps_clear s)
        unfold runTok
        refine step_placing ?_
        rw [xargs_only F _ Src.IRedefinePermission a (by decide) hno (by decide), path_same hp]
        unfold readEv
        have h := pick_permission F N a "from_" true hx hAc
        cases hq : readPermission F.id st x with
        | diverge => rw [hq] at h; exact h.elim
        | err e =>
          rw [hq] at h
          obtain ⟨s1, h⟩ := h
          simp only [hq]
          exact ⟨s1, bind_err (picks_err h)⟩
        | ok v =>
          obtain ⟨x', l1⟩ := v
          rw [hq] at h
          obtain ⟨s1, R1, h1, h2, h3, h4, _⟩ := h
          have h' := pick_permission F N a "to" true hy (hAc.keeps h2)
          simp only [hq]
          cases hq' : readPermission F.id st y with
          | diverge => rw [hq'] at h'; exact h'.elim
          | err e =>
            rw [hq'] at h'
            obtain ⟨s2, h'⟩ := h'
            exact ⟨s2, bind_err (picks_err' h1 (picks_err h'))⟩
          | ok v =>
            obtain ⟨y', l2⟩ := v
            rw [hq'] at h'
            obtain ⟨s2, R2, g1, g2, g3, g4, _⟩ := h'
            obtain ⟨s3, r1, r2, r3⟩ := redefine_agree F.id x' y' ((hAc.keeps h2).keeps g2) hst
            have hk : pickArgs (xconvert F) a Src.IRedefinePermission (cleared s)
                = (.ok (optArg "from_" (some (.v (idVal x'))) ++ (optArg "to" (some (.v (idVal y'))) ++ [])), s2) := picks_ok h1 (picks_ok g1 picks_nil)
            rw [bind_ok hk, zcml_call F N fs _ Zcml.redefinePermission rfl]
            rw [run_filled (zcmlLang F.id) Zcml.redefinePermission [("_context", none)] [("from_", none), ("to", none)] rfl [.sym "_context"] rfl
              (.given rfl (.given (x := .v (idVal y')) (by simp [takeKw_append, takeKw_opt]) .nil)) (by args_in) (by decide)]
            refine ⟨s3, (bind_ok r1).trans rfl, r2, ?_, hp.trans (redefine_path _ _ _).symm, trivial⟩
            rw [r3, g3, h3, List.map_append]
            exact paired_append h4 g4
  · cases he

theorem step_modAllow (F : Fields) (N : Naming) (m : Option String) (a : List (String × String)) (e : Ev) (he : modAllowEvent F m a = some e)
    {s : St Reading} {st : List Frame} {fs : List XFrame} (hA : Nested s st) (hp : fs.map XFrame.path = st.map Frame.path)
    (hm : moduleOf fs = m.map fun m => .v (.module m)) :
    Step N fs (fun _ => True) (readEv F.id st e) (runTok F N fs (.simple allowDef a) s) := by
  unfold modAllowEvent at he
  split at he
  · rename_i hno
    cases m with
    | none => cases he
    | some m =>
    cases hx : namesIn F (a.lookup "attributes") with
    | none => rw [hx] at he; cases he
    | some x =>
      cases hy : interfacesIn F (a.lookup "interface") with
      | none => rw [hx, hy] at he; cases he
      | some y =>
        rw [hx, hy] at he
        cases he
        obtain ⟨o1, ho1, hk1⟩ := pick_names F a "attributes" (by decide) hx
        obtain ⟨o2, ho2, hk2⟩ := pick_interfaces F a "interface" (by decide) false hy (fun h => by cases h)
        unfold runTok
        refine step_placing ?_
        rw [path_same hp]
        have hx : xargs F allowDef.schema a (cleared s) = (.ok (optArg "attributes" o1 ++ (optArg "interface" o2 ++ [])), cleared s) := by
          rw [xargs_only F _ Src.IAllow a (by decide) hno (by decide)]
          exact picks_ok (hk1 _) (picks_ok (hk2 _) picks_nil)
        rw [bind_ok hx, mod_call F N fs _ Metaconfigure.allow rfl rfl hm]
        rw [run_filled _ Metaconfigure.allow [("context", none)] [("attributes", some (.tuple [])), ("interface", some (.tuple []))] rfl [.sym "_context"] rfl
          (filled_opt (o := o1) (by simp [takeKw_append, takeKw_opt]) (eval_unit _)
            (filled_opt (o := o2) (by simp [takeKw_append, takeKw_opt]) (eval_unit _) .nil)) (by args_in) (by decide)]
        obtain ⟨D, hD⟩ := mod_allow { N with module := .module m } 3 m rfl x y (miter_names ho1) (miter_interfaces ho2) (cleared s)
        refine inner_directive (.mod m (.allow x y)) (s := cleared s) hD ?_ (Left.keeps rfl) trivial (hA.keeps (keeps_clear s)) hp (paired_nil N)
        change (cleared s).app.actions ++ _ = (cleared s).app.actions ++ _
        exact congrArg _ (List.map_congr_left fun a _ => rawOf_module N _ a)
  · cases he

theorem step_modRequire (F : Fields) (N : Naming) (m : Option String) (a : List (String × String)) (e : Ev) (he : modRequireEvent F m a = some e)
    {s : St Reading} {st : List Frame} {fs : List XFrame} (hA : Nested s st) (hp : fs.map XFrame.path = st.map Frame.path)
    (hm : moduleOf fs = m.map fun m => .v (.module m)) :
    Step N fs (fun _ => True) (readEv F.id st e) (runTok F N fs (.simple requireDef a) s) := by
  unfold modRequireEvent at he
  split at he
  · rename_i hno
    cases m with
    | none => cases he
    | some m =>
    cases hl : a.lookup "permission" with
    | none => rw [hl] at he; cases he
    | some raw =>
      cases hx : namesIn F (a.lookup "attributes") with
      | none => rw [hl, hx] at he; cases he
      | some x =>
        rw [hl, hx] at he
        cases he
        have hAc := hA.keeps (keeps_clear s)
        obtain ⟨o1, ho1, hk1⟩ := pick_names F a "attributes" (by decide) hx
        have h := pick_permission F N a "permission" true hl hAc
        unfold runTok
        refine step_placing ?_
        rw [xargs_only F _ Src.IRequire a (by decide) (fun p hp => by have := hno p hp; revert this; generalize p.1 = k; intro this; simp [Src.IRequire] at this ⊢; exact this.symm.imp (·.trans (by decide)) (·.trans (by decide))) (by decide), path_same hp]
        unfold readEv readDirective
        simp only
        cases hq : readPermission F.id st raw with
        | diverge => rw [hq] at h; exact h.elim
        | err e =>
          rw [hq] at h
          obtain ⟨s1, h⟩ := h
          exact ⟨s1, bind_err (picks_err' (hk1 _) (picks_err h))⟩
        | ok v =>
          obtain ⟨v, l⟩ := v
          rw [hq] at h
          obtain ⟨s1, R, h1, h2, h3, h4, _⟩ := h
          have hk : pickArgs (xconvert F) a Src.IRequire (cleared s) = (.ok (optArg "attributes" o1 ++ (optArg "permission" (some (.v (idVal v))) ++ [])), s1) :=
            picks_ok (hk1 _) (picks_ok h1 picks_nil)
          rw [bind_ok hk, mod_call F N fs _ Metaconfigure.require rfl rfl hm]
          rw [run_filled _ Metaconfigure.require [("context", none)] [("permission", none), ("attributes", some (.tuple [])), ("interface", some (.tuple []))] rfl
            [.sym "_context"] rfl (.given (x := .v (idVal v)) (by simp [takeKw_append, takeKw_opt]) (filled_opt (o := o1) (by simp [takeKw_append, takeKw_opt]) (eval_unit _)
              (filled_opt (o := none) (by simp [takeKw_append, takeKw_opt]) (eval_unit _) .nil))) (by args_in) (by decide)]
          obtain ⟨D, hD⟩ := mod_require { N with module := .module m } 3 m rfl (idVal v) x [] (miter_names ho1) (b := .tuple []) rfl s1
          refine inner_directive (.mod m (.require (idVal v) x [])) hD ?_ (Left.keeps rfl) trivial (hAc.keeps h2) hp (by rw [h3]; exact h4)
          exact congrArg _ (List.map_congr_left fun a _ => rawOf_module N _ a)
  · cases he

/-! ## All steps -/

/-- The modules of the contexts, from the innermost. -/
def Mods : List XFrame → List (Option String) → Prop
  | [], [] => True
  | c :: r, m :: ms => moduleOf (c :: r) = m.map (fun m => .v (.module m)) ∧ Mods r ms
  | _, _ => False

/-- Steps that mean events, in contexts with modules `ms`, and inside `class` for the class `cl`. -/
inductive Reads (F : Fields) : List (Option String) → Option String → List XTok → List Ev → Prop where
  | nil {ms cl} : Reads F ms cl [] []
  | enter {m ms cl file ts evs} : Reads F (m :: m :: ms) none ts evs → Reads F (m :: ms) cl (.enter file :: ts) (.enter file :: evs)
  | group {m ms cl a m' ts evs} : NoOther ["module"] a → moduleIn F (a.lookup "module") = some m' → Reads F (some m' :: m :: ms) none ts evs →
      Reads F (m :: ms) cl (.group moduleDef a :: ts) (.enter none :: evs)
  | leave {m m' ms cl ts evs} : Reads F (m :: ms) none ts evs → Reads F (m' :: m :: ms) cl (.leave :: ts) (.leave :: evs)
  | permission {m ms cl a e ts evs} : permissionEvent a = some e → Reads F (m :: ms) none ts evs → Reads F (m :: ms) cl (.simple permissionDef a :: ts) (e :: evs)
  | policy {m ms cl a e ts evs} : policyEvent F a = some e → Reads F (m :: ms) none ts evs → Reads F (m :: ms) cl (.simple policyDef a :: ts) (e :: evs)
  | redefine {m ms cl a e ts evs} : redefineEvent a = some e → Reads F (m :: ms) none ts evs → Reads F (m :: ms) cl (.simple redefineDef a :: ts) (e :: evs)
  | modAllow {m ms cl a e ts evs} : modAllowEvent F m a = some e → Reads F (m :: ms) none ts evs → Reads F (m :: ms) cl (.simple allowDef a :: ts) (e :: evs)
  | modRequire {m ms cl a e ts evs} : modRequireEvent F m a = some e → Reads F (m :: ms) none ts evs → Reads F (m :: ms) cl (.simple requireDef a :: ts) (e :: evs)
  | cls {m ms cl a t ts evs} : NoOther ["class"] a → classIn F (a.lookup "class") = some t → Reads F (m :: ms) (some t) ts evs →
      Reads F (m :: ms) cl (.complex classDef a :: ts) evs
  | require {m ms t a e ts evs} : requireEvent F t a = some e → Reads F (m :: ms) (some t) ts evs →
      Reads F (m :: ms) (some t) (.sub classDef "zope.security.metadirectives.IRequireSubdirective" "require" a :: ts) (e :: evs)
  | allow {m ms t a e ts evs} : allowEvent F t a = some e → Reads F (m :: ms) (some t) ts evs →
      Reads F (m :: ms) (some t) (.sub classDef "zope.security.metadirectives.IAllowSubdirective" "allow" a :: ts) (e :: evs)
  | implements {m ms t a e ts evs} : implementsEvent F t a = some e → Reads F (m :: ms) (some t) ts evs →
      Reads F (m :: ms) (some t) (.sub classDef "zope.security.metadirectives.IImplementsSubdirective" "implements" a :: ts) (e :: evs)
  | done {m ms t ts evs} : Reads F (m :: ms) none ts evs → Reads F (m :: ms) (some t) (.done classDef :: ts) evs

/-- What all steps have to lead to. -/
def Ends (N : Naming) (o : Res (List Frame × List FAction)) (r : Res (List XFrame × List Placed) × St Reading) : Prop :=
  match o with
  | .ok (_, l) => ∃ fs s rs, r = (.ok (fs, rs), s) ∧ Paired N l rs
  | .err e => ∃ s, r = (.err e, s)
  | .diverge => False

/-- The state is that of the handler of `cl`. -/
def Inside (s : St Reading) : Option String → Prop
  | some t => Handles t s
  | none => True

/-- The rest of the events after one of them. -/
def following (f : IdField) (evs : List Ev) : Res (List Frame × List FAction) → Res (List Frame × List FAction)
  | .ok (st1, l1) =>
    match readEvs f st1 evs with
    | .ok (st2, l2) => .ok (st2, l1 ++ l2)
    | .err e => .err e
    | .diverge => .diverge
  | .err e => .err e
  | .diverge => .diverge

theorem ends_step {F : Fields} {N : Naming} {fs fs' : List XFrame} {Q : St Reading → Prop} {o : Res (List Frame × List FAction)} {t : XTok} {ts : List XTok}
    {evs : List Ev} {s : St Reading} (h : Step N fs' Q o (runTok F N fs t s)) (hf : fs' ≠ [])
    (hr : ∀ s1 st1, Nested s1 st1 → st1 ≠ [] → fs'.map XFrame.path = st1.map Frame.path → Q s1 → Ends N (readEvs F.id st1 evs) (runToks F N fs' ts s1)) :
    Ends N (following F.id evs o) (runToks F N fs (t :: ts) s) := by
  unfold runToks
  unfold Step at h
  cases o with
  | diverge => exact h
  | err e =>
    obtain ⟨s1, h⟩ := h
    exact ⟨s1, bind_err h⟩
  | ok x =>
    obtain ⟨st1, l1⟩ := x
    obtain ⟨s1, rs, h1, h2, h3, h4, h5⟩ := h
    rw [bind_ok h1]
    have hst : st1 ≠ [] := by
      rintro rfl
      cases fs' with
      | nil => exact hf rfl
      | cons _ _ => cases h4
    have h6 := hr s1 st1 h2 hst h4 h5
    unfold following
    simp only
    cases hq : readEvs F.id st1 evs with
    | diverge => rw [hq] at h6; exact h6
    | err e =>
      rw [hq] at h6
      obtain ⟨s2, h6⟩ := h6
      exact ⟨s2, bind_err h6⟩
    | ok y =>
      obtain ⟨st2, l2⟩ := y
      rw [hq] at h6
      obtain ⟨fs2, s2, rs2, h6, h7⟩ := h6
      exact ⟨fs2, s2, _, (bind_ok h6).trans rfl, paired_append h3 h7⟩

theorem reads_ends (F : Fields) (N : Naming) {ms : List (Option String)} {cl : Option String} {ts : List XTok} {evs : List Ev} (h : Reads F ms cl ts evs) :
    ∀ {s : St Reading} {st : List Frame} {fs : List XFrame}, Nested s st → st ≠ [] → fs.map XFrame.path = st.map Frame.path → Mods fs ms → Inside s cl →
      Ends N (readEvs F.id st evs) (runToks F N fs ts s) := by
  have one : ∀ {e : Ev} {evs : List Ev} {st : List Frame}, readEvs F.id st (e :: evs) = following F.id evs (readEv F.id st e) := fun {e evs st} => by
    conv => lhs; unfold readEvs
    unfold following
    rfl
  have silent : ∀ {evs : List Ev} {st : List Frame}, readEvs F.id st evs = following F.id evs (.ok (st, [])) := fun {evs st} => by
    unfold following
    simp only
    cases readEvs F.id st evs <;> rfl
  have nonempty : ∀ {fs : List XFrame} {m : Option String} {ms : List (Option String)}, Mods fs (m :: ms) → fs ≠ [] := by
    intro fs m ms h h0
    subst h0
    exact h
  induction h with
  | nil =>
    intro s st fs _ _ _ _ _
    exact ⟨fs, s, [], rfl, paired_nil N⟩
  | enter _ ih =>
    intro s st fs hA hst hp hm _
    rw [one]
    have hm' := hm
    match fs, hm' with
    | c :: r, hm' =>
    refine ends_step (step_enter F N _ hA hp) (by simp) fun s1 st1 h1 h2 h3 _ => ih h1 h2 h3 ⟨hm'.1, hm⟩ trivial
  | group hno hmod _ ih =>
    intro s st fs hA hst hp hm _
    rw [one]
    exact ends_step (step_module F N _ _ hno hmod hA hp) (by simp) fun s1 st1 h1 h2 h3 _ => ih h1 h2 h3 ⟨rfl, hm⟩ trivial
  | leave _ ih =>
    intro s st fs hA hst hp hm _
    rw [one]
    match fs, hm with
    | c :: r, hm =>
    exact ends_step (step_leave F N (nonempty hm.2) hA hp) (nonempty hm.2) fun s1 st1 h1 h2 h3 _ => ih h1 h2 h3 hm.2 trivial
  | permission he _ ih =>
    intro s st fs hA hst hp hm _
    rw [one]
    exact ends_step (step_permission F N _ _ he hA hp) (nonempty hm) fun s1 st1 h1 h2 h3 _ => ih h1 h2 h3 hm trivial
  | policy he _ ih =>
    intro s st fs hA hst hp hm _
    rw [one]
    exact ends_step (step_policy F N _ _ he hA hp) (nonempty hm) fun s1 st1 h1 h2 h3 _ => ih h1 h2 h3 hm trivial
  | redefine he _ ih =>
    intro s st fs hA hst hp hm _
    rw [one]
    exact ends_step (step_redefine F N _ _ he hA hst hp) (nonempty hm) fun s1 st1 h1 h2 h3 _ => ih h1 h2 h3 hm trivial
  | modAllow he _ ih =>
    intro s st fs hA hst hp hm _
    rw [one]
    match fs, hm with
    | c :: r, hm =>
    exact ends_step (step_modAllow F N _ _ _ he hA hp hm.1) (by simp) fun s1 st1 h1 h2 h3 _ => ih h1 h2 h3 hm trivial
  | modRequire he _ ih =>
    intro s st fs hA hst hp hm _
    rw [one]
    match fs, hm with
    | c :: r, hm =>
    exact ends_step (step_modRequire F N _ _ _ he hA hp hm.1) (by simp) fun s1 st1 h1 h2 h3 _ => ih h1 h2 h3 hm trivial
  | cls hno hc _ ih =>
    intro s st fs hA hst hp hm _
    rw [silent]
    exact ends_step (step_class F N _ _ hno hc hA hp) (nonempty hm) fun s1 st1 h1 h2 h3 h4 => ih h1 h2 h3 hm h4
  | require he _ ih =>
    intro s st fs hA hst hp hm hh
    rw [one]
    exact ends_step (step_require F N _ _ _ he hA hp hh) (nonempty hm) fun s1 st1 h1 h2 h3 h4 => ih h1 h2 h3 hm h4
  | allow he _ ih =>
    intro s st fs hA hst hp hm hh
    rw [one]
    exact ends_step (step_allow F N _ _ _ he hA hp hh) (nonempty hm) fun s1 st1 h1 h2 h3 h4 => ih h1 h2 h3 hm h4
  | implements he _ ih =>
    intro s st fs hA hst hp hm hh
    rw [one]
    exact ends_step (step_implements F N _ _ _ he hA hp hh) (nonempty hm) fun s1 st1 h1 h2 h3 h4 => ih h1 h2 h3 hm h4
  | done _ ih =>
    intro s st fs hA hst hp hm _
    rw [silent]
    exact ends_step (step_done F N hA hp) (nonempty hm) fun s1 st1 h1 h2 h3 _ => ih h1 h2 h3 hm trivial

/-! ## From elements to steps -/

theorem reads_subs (F : Fields) (t : String) {m : Option String} {ms : List (Option String)} : ∀ (xs : List Xml) (evs : List Ev), subEvents F t xs = some evs →
    ∀ {ts evs'}, Reads F (m :: ms) (some t) ts evs' →
      Reads F (m :: ms) (some t) (flatSubs classDef [("implements", "zope.security.metadirectives.IImplementsSubdirective"),
        ("require", "zope.security.metadirectives.IRequireSubdirective"), ("allow", "zope.security.metadirectives.IAllowSubdirective"),
        ("factory", "zope.security.metadirectives.IFactorySubdirective")] xs ++ ts) (evs ++ evs')
  | [], evs, h, ts, evs', hr => by
    cases h
    exact hr
  | .el ns n a ch :: r, evs, h, ts, evs', hr => by
    unfold subEvents at h
    cases he : subEvent F t (.el ns n a ch) with
    | none => rw [he] at h; cases h
    | some e =>
    cases hl : subEvents F t r with
    | none => rw [he, hl] at h; cases h
    | some l =>
      rw [he, hl] at h
      cases h
      have ih := reads_subs F t r l hl hr
      unfold flatSubs
      cases ch with
      | cons _ _ => cases he
      | nil =>
        unfold subEvent at he
        simp only at he
        by_cases h1 : n = "require"
        · subst h1
          exact .require he ih
        · rw [if_neg h1] at he
          by_cases h2 : n = "allow"
          · subst h2
            exact .allow he ih
          · rw [if_neg h2] at he
            by_cases h3 : n = "implements"
            · subst h3
              exact .implements he ih
            · rw [if_neg h3] at he
              cases he

end ZS.Props
