import Verif.Lemmas.PyReadRun
import Verif.Props.SourceDecl
import Verif.Model.File

/-!
# C80: the source of the directives emits the actions of the model
-/

namespace ZS.Props
open ZS ZS.PyC ZS.Src
set_option maxHeartbeats 1000000

/-- `interface.__module__ + '.' + interface.getName()`. -/
def dotted (N : Naming) (i : Iface) : String := N.ifaceModule i ++ "." ++ N.ifaceName i

/-- The keyword arguments of `_context.action`. -/
def raw (disc : PV) (callable : Name) (args : List PV) : Raw :=
  [("discriminator", disc), ("callable", .sym callable), ("args", .tuple args)]

/-- What `_context.action` is to be called with for an action of the model: the discriminators
of metaconfigure.py (`object()` is a new object each time), the function to be called and its arguments. -/
def rawOf (N : Naming) : Action → Raw
  | .mimic k u => raw (.tuple [nameV "mimic", .v k.val, .sym "object()"]) "protectLikeUnto" [.v k.val, .v u.val]
  | .name (.ty t) n p => raw (.tuple [nameV "protectName", .v (.type t), nameV n]) "protectName" [.v (.type t), nameV n, .v p]
  | .name (.mod m) n p => raw (.tuple [nameV "http://namespaces.zope.org/zope:module", .v (.module m), nameV n]) "protectModule"
      [.v (.module m), nameV n, .v p]
  | .setAttr k n p => raw (.tuple [nameV "protectSetAttribute", .v k.val, nameV n]) "protectSetAttribute" [.v k.val, nameV n, .v p]
  | .classImplements k i => raw (.tuple [nameV "ContentDirective", .v k.val, .sym "object()"]) "classImplements" [.v k.val, .iface i]
  | .provideInterface i => raw (.v .none) "provideInterface" [.v (.str 0 (dotted N i)), .iface i]

/-- The handler of a class directive after its `__init__`. -/
structure Handles (t : String) (s : St Reading) : Prop where
  cls : Env.get? s.app.attrs "_ClassDirective__class" = some (.v (.type t))
  ctx : Env.get? s.app.attrs "_ClassDirective__context" = some (.sym "_context")

theorem Handles.emit {t : String} {s : St Reading} (hr : Handles t s) (l : List Raw) : Handles t (emit s l) :=
  ⟨hr.1, hr.2⟩

section
variable {β : Type} {t : String} {s : St Reading} {k : PV → St Reading → Res β × St Reading} {h : Exn → St Reading → Res β × St Reading}

theorem own_cls (hr : Handles t s) : fork (ownAttr "_ClassDirective__class") k h s = k (.v (.type t)) s := by
  unfold ownAttr
  rw [fork_bind, fork_get, hr.cls]; rfl

theorem own_ctx (hr : Handles t s) : fork (ownAttr "_ClassDirective__context") k h s = k (.sym "_context") s := by
  unfold ownAttr
  rw [fork_bind, fork_get, hr.ctx]; rfl

theorem m_name (N : Naming) (n : Nat) (hr : Handles t s) (x : Name) (p : Val) :
    fork (run (metaLang N n) Metaconfigure.ClassDirective.__protectName [.sym "self", nameV x, .v p]) k h s =
      k (.v .none) (emit s [rawOf N (.name (.ty t) x p)]) := by
  msteps [Metaconfigure.ClassDirective.__protectName, ↓own_cls hr, ↓own_ctx hr, rawOf, raw, nameV]

theorem m_mimic (N : Naming) (n : Nat) (hr : Handles t s) (u : Key) :
    fork (run (metaLang N n) Metaconfigure.ClassDirective.__mimic [.sym "self", .sym "_context", .v u.val]) k h s =
      k (.v .none) (emit s [rawOf N (.mimic (.ty t) u)]) := by
  msteps [Metaconfigure.ClassDirective.__mimic, ↓own_cls hr, ↓own_ctx hr, rawOf, raw, nameV, Key.val]
end

/-- A loop whose body emits actions for an item. -/
theorem emit_loop {α β : Type} (L : Lang Reading) (tg : Expr) (b : Env → M Reading Flow) (f : α → PV) (g : α → List Raw)
    (I : Env → Prop) (J : St Reading → Prop) (Q : α → Prop) (hJ : ∀ s l, J s → J (emit s l))
    (hb : ∀ x env (kf : Flow → St Reading → Res β × St Reading) h he s R, Q x → I env → J s →
      (∀ env', I env' → kf (.next env') (emit s (g x)) = R) →
      fork (assign L tg (f x) env) (fun e => fork (b e) kf h) he s = R) :
    ∀ (l : List α) env (kf : Flow → St Reading → Res β × St Reading) h s R, (∀ x ∈ l, Q x) → I env → J s →
      (∀ env', I env' → kf (.next env') (emit s (l.flatMap g)) = R) →
      fork (forLoop (assign L tg) b (l.map f) env) kf h s = R := by
  intro l
  induction l with
  | nil =>
    intro env kf h s R _ hI _ hR
    rw [List.map_nil, fl_nil, ← hR env hI, List.flatMap_nil, emit_nil]
  | cons x r ih =>
    intro env kf h s R hQ hI hJs hR
    rw [List.map_cons, fl_cons]
    refine hb x env _ h _ s R (hQ x List.mem_cons_self) hI hJs fun env' hI' => ?_
    rw [im_next]
    refine ih env' kf h _ R (fun y hy => hQ y (List.mem_cons_of_mem _ hy)) hI' (hJ _ _ hJs) fun env'' hI'' => ?_
    rw [emit_emit, ← hR env'' hI'', List.flatMap_cons]

theorem flat_single {α β : Type} (f : α → β) (l : List α) : l.flatMap (fun x => [f x]) = l.map f := by
  induction l with
  | nil => rfl
  | cons x r ih => rw [List.flatMap_cons, ih]; rfl

theorem flat_filter {α β : Type} (p : α → Bool) (f : α → β) (l : List α) :
    l.flatMap (fun x => if p x then [f x] else []) = (l.filter p).map f := by
  induction l with
  | nil => rfl
  | cons x r ih =>
    rw [List.flatMap_cons, ih]
    cases hp : p x <;> simp [hp]

theorem sorted_names (i : Iface) : (i.keys.map nameV).mergeSort inOrder = i.sortedNames.map nameV := by
  unfold Iface.sortedNames
  rw [List.map_mergeSort]
  intro a _ b _
  rfl

theorem sorted_pairs (i : Iface) : ∃ l : List (Name × Descr),
    (i.map fun p => PV.tuple [nameV p.1, .descr p.2]).mergeSort inOrder = l.map (fun p => PV.tuple [nameV p.1, .descr p.2])
      ∧ l.map Prod.fst = i.sortedNames := by
  refine ⟨i.mergeSort (fun a b => decide (a.1 ≤ b.1)), ?_, ?_⟩
  · rw [List.map_mergeSort]
    intro a _ b _
    rfl
  · unfold Iface.sortedNames PyDict.keys
    rw [List.map_mergeSort]
    intro a _ b _
    rfl

section
variable {β : Type} {t : String} {s : St Reading} {k : PV → St Reading → Res β × St Reading} {h : Exn → St Reading → Res β × St Reading}

theorem m_names (N : Naming) (n : Nat) (hr : Handles t s) (l : List Name) (xs : PV) (hx : miter xs = pure (l.map nameV)) (p : Val) :
    fork (run (metaLang N (n + 1)) Metaconfigure.ClassDirective.__protectNames [.sym "self", xs, .v p]) k h s =
      k (.v .none) (emit s ((protectNames (.ty t) l p).map (rawOf N))) := by
  msteps [Metaconfigure.ClassDirective.__protectNames, hx]
  refine emit_loop _ _ _ nameV (fun x => [rawOf N (.name (.ty t) x p)])
    (fun e => Env.get? e "self" = some (.sym "self") ∧ Env.get? e "permission_id" = some (.v p)) (Handles t) (fun _ => True)
    (fun s l hs => hs.emit l) ?_ l _ _ _ _ _ (fun _ _ => trivial) ?_ hr ?_
  · intro x env kf h he s R _ hI hs hR
    rw [← hR ((("name", nameV x) :: env)) (by msteps [hI.1, hI.2]; exact ⟨trivial, trivial⟩)]
    msteps [hI.1, hI.2, ml_name, ↓m_name N n hs]
  · msteps; exact ⟨trivial, trivial⟩
  · intro env' _
    rw [flat_single]
    unfold protectNames
    msteps [List.map_map, Function.comp_def]

theorem m_byInterface (N : Naming) (n : Nat) (hr : Handles t s) (i : Iface) (p : Val) :
    fork (run (metaLang N (n + 1)) Metaconfigure.ClassDirective.__protectByInterface [.sym "self", .iface i, .v p]) k h s =
      k (.v .none) (emit s ((protectByInterface (.ty t) i p).map (rawOf N))) := by
  obtain ⟨l, h1, h2⟩ := sorted_pairs i
  msteps [Metaconfigure.ClassDirective.__protectByInterface, msorted, h1]
  refine emit_loop _ _ _ (fun q : Name × Descr => PV.tuple [nameV q.1, .descr q.2]) (fun q => [rawOf N (.name (.ty t) q.1 p)])
    (fun e => Env.get? e "self" = some (.sym "self") ∧ Env.get? e "permission_id" = some (.v p) ∧ Env.get? e "interface" = some (.iface i))
    (Handles t) (fun _ => True) (fun s l hs => hs.emit l) ?_ l _ _ _ _ _ (fun _ _ => trivial) ?_ hr ?_
  · intro x env kf h he s R _ hI hs hR
    rw [← hR (("d", .descr x.2) :: ("n", nameV x.1) :: env) (by msteps [hI.1, hI.2]; exact ⟨trivial, trivial, trivial⟩)]
    msteps [hI.1, hI.2, ml_name, ↓m_name N n hs]
  · msteps; exact ⟨trivial, trivial, trivial⟩
  · intro env' hI
    rw [flat_single]
    unfold protectByInterface
    rw [← h2]
    msteps [List.map_map, Function.comp_def, hI.1, hI.2, ↓own_ctx (hr.emit _), List.map_append, List.map_cons, List.map_nil]
    rfl

theorem m_setAttributes (N : Naming) (n : Nat) (hr : Handles t s) (l : List Name) (xs : PV) (hx : miter xs = pure (l.map nameV)) (p : Val) :
    fork (run (metaLang N n) Metaconfigure.ClassDirective.__protectSetAttributes [.sym "self", xs, .v p]) k h s =
      k (.v .none) (emit s ((protectSetAttributes (.ty t) l p).map (rawOf N))) := by
  msteps [Metaconfigure.ClassDirective.__protectSetAttributes, hx]
  refine emit_loop _ _ _ nameV (fun x => [rawOf N (.setAttr (.ty t) x p)])
    (fun e => Env.get? e "self" = some (.sym "self") ∧ Env.get? e "permission_id" = some (.v p)) (Handles t) (fun _ => True)
    (fun s l hs => hs.emit l) ?_ l _ _ _ _ _ (fun _ _ => trivial) ?_ hr ?_
  · intro x env kf h he s R _ hI hs hR
    rw [← hR ((("name", nameV x) :: env)) (by msteps [hI.1, hI.2]; exact ⟨trivial, trivial⟩)]
    msteps [hI.1, hI.2, ↓own_cls hs, ↓own_ctx hs, rawOf, raw, Key.val, nameV]
  · msteps; exact ⟨trivial, trivial⟩
  · intro env' _
    rw [flat_single]
    unfold protectSetAttributes
    msteps [List.map_map, Function.comp_def]

theorem get_of_keys (i : Iface) (x : Name) (hx : x ∈ i.keys) : ∃ d, PyDict.get? i x = some d := by
  induction i with
  | nil => cases hx
  | cons q r ih =>
    obtain ⟨m, d⟩ := q
    by_cases hm : m = x
    · exact ⟨d, by rw [PyDict.get?, if_pos hm]⟩
    · rw [PyDict.get?, if_neg hm]
      refine ih ?_
      rcases List.mem_cons.1 hx with he | he
      · exact absurd he.symm hm
      · exact he

theorem m_setSchema (N : Naming) (n : Nat) (hr : Handles t s) (i : Iface) (p : Val) :
    fork (run (metaLang N n) Metaconfigure.ClassDirective.__protectSetSchema [.sym "self", .iface i, .v p]) k h s =
      k (.v .none) (emit s ((protectSetSchema (.ty t) i p).map (rawOf N))) := by
  msteps [Metaconfigure.ClassDirective.__protectSetSchema, msorted, ↓own_ctx hr, sorted_names]
  refine emit_loop _ _ _ nameV (fun x => if writableField i x then [rawOf N (.setAttr (.ty t) x p)] else [])
    (fun e => Env.get? e "self" = some (.sym "self") ∧ Env.get? e "permission_id" = some (.v p) ∧ Env.get? e "schema" = some (.iface i)
      ∧ Env.get? e "_context" = some (.sym "_context"))
    (Handles t) (fun x => x ∈ i.keys) (fun s l hs => hs.emit l) ?_ _ _ _ _ _ _
    (fun x hx => List.mem_mergeSort.1 hx) ?_ hr ?_
  · intro x env kf h he s R hx hI hs hR
    obtain ⟨d, hd⟩ := get_of_keys i x hx
    rw [← hR (("field", .descr d) :: ("name", nameV x) :: env) (by msteps [hI.1, hI.2]; exact ⟨trivial, trivial, trivial, trivial⟩)]
    cases d with
    | notField => msteps [hI.1, hI.2, hd, nameV, writableField]
    | field r => cases r <;>
        msteps [hI.1, hI.2, hd, nameV, writableField, ↓own_cls hs, ↓own_ctx hs, rawOf, raw, Key.val]
  · msteps; exact ⟨trivial, trivial, trivial, trivial⟩
  · intro env' hI
    rw [flat_filter]
    unfold protectSetSchema
    msteps [List.map_map, Function.comp_def, hI.1, hI.2, List.map_append, List.map_cons, List.map_nil]
    rfl

theorem m_setSchema_none (N : Naming) (n : Nat) (hr : Handles t s) (p : Val) :
    fork (run (metaLang N n) Metaconfigure.ClassDirective.__protectSetSchema [.sym "self", .v .none, .v p]) k h s =
      h .typeError s := by
  msteps [Metaconfigure.ClassDirective.__protectSetSchema, msorted, ↓own_ctx hr]

/-- The actions emitted, and then a return of `None` or an exception. -/
def ended (k : PV → St Reading → Res β × St Reading) (h : Exn → St Reading → Res β × St Reading) (N : Naming) (s : St Reading)
    (r : List Action × Option Exn) : Res β × St Reading :=
  match r.2 with
  | none => k (.v .none) (emit s (r.1.map (rawOf N)))
  | some e => h e (emit s (r.1.map (rawOf N)))
end

/-- An argument of a directive that is a list: left out, a list or a tuple. -/
inductive ListArg {α : Type} (f : α → PV) : List α → PV → Prop where
  | none : ListArg f [] (.v .none)
  | list (l : List α) : ListArg f l (.list (l.map f))
  | tuple (l : List α) : ListArg f l (.tuple (l.map f))

theorem ListArg.truth {α : Type} {f : α → PV} {l : List α} {x : PV} (hx : ListArg f l x) : mtruth x = pure (!l.isEmpty) := by
  cases hx with
  | none => rfl
  | list => rw [mtruth_list]; cases l <;> rfl
  | tuple => rw [mtruth_tuple]; cases l <;> rfl

theorem ListArg.iter {α : Type} {f : α → PV} {l : List α} {x : PV} (hx : ListArg f l x) (hl : l.isEmpty = false) :
    miter x = pure (l.map f) := by
  cases hx with
  | none => cases hl
  | list => rfl
  | tuple => rfl

/-- An interface or `None`. -/
def ifaceV : Option Iface → PV
  | none => .v .none
  | some i => .iface i

/-- A class or `None`. -/
def keyV : Option Key → PV
  | none => .v .none
  | some k => .v k.val

/-- The arguments of `require`. -/
structure RequireArgs (r : Require) (attributes interface like setAttributes setSchema : PV) : Prop where
  attributes : ListArg nameV r.attributes attributes
  interface : ListArg ifaceV r.interface interface
  like : like = keyV r.likeClass
  setAttributes : ListArg nameV r.setAttributes setAttributes
  setSchema : ListArg ifaceV r.setSchema setSchema

/-- A permission as the directives give it: `None` or a string. -/
def IsPermission : Val → Prop
  | .none => True
  | .str _ _ => True
  | _ => False

theorem truth_permission {p : Val} (hp : IsPermission p) : mtruth (.v p) = pure (!falsyPermission p) := by
  cases p with
  | none => rfl
  | str a t => rfl
  | _ => cases hp

/-- metaconfigure.py:88-98. -/
def requireTail : List Stmt := Metaconfigure.ClassDirective.require.body.drop 3

theorem require_body : Metaconfigure.ClassDirective.require.body =
    Metaconfigure.ClassDirective.require.body.take 3 ++ requireTail := rfl

/-- The local variables of `require`. -/
structure RequireEnv (p : Val) (attributes interface setAttributes setSchema : PV) (e : Env) : Prop where
  self : Env.get? e "self" = some (.sym "self")
  permission : Env.get? e "permission" = some (.v p)
  attributes : Env.get? e "attributes" = some attributes
  interface : Env.get? e "interface" = some interface
  setAttributes : Env.get? e "set_attributes" = some setAttributes
  setSchema : Env.get? e "set_schema" = some setSchema

theorem RequireEnv.put {p : Val} {a b c d : PV} {e : Env} (he : RequireEnv p a b c d e) (n : Name) (x : PV) (hn : n = "i" ∨ n = "s") :
    RequireEnv p a b c d ((n, x) :: e) := by
  rcases hn with rfl | rfl <;> constructor <;> msteps [he.1, he.2, he.3, he.4, he.5, he.6]

section
variable {β : Type} {t : String} {s : St Reading} {kf : Flow → St Reading → Res β × St Reading} {h : Exn → St Reading → Res β × St Reading}
  {p : Val} {a b c d : PV} {e : Env} {R : Res β × St Reading}

theorem interfaces_flat (k : Key) (p : Val) (l : List (Option Iface)) :
    l.flatMap (fun o => protectInterfaces k p [o]) = protectInterfaces k p l := by
  induction l with
  | nil => rfl
  | cons x r ih => rw [List.flatMap_cons, ih]; cases x <;> simp [protectInterfaces]

theorem phase_interface (N : Naming) (n : Nat) (hr : Handles t s) (l : List (Option Iface)) (hl : ListArg ifaceV l b)
    (he : RequireEnv p a b c d e)
    (hR : ∀ e', RequireEnv p a b c d e' → kf (.next e') (emit s ((protectInterfaces (.ty t) p l).map (rawOf N))) = R) :
    fork (exec (metaLang N (n + 2)) (.if (.loc "interface")
     [.for (.loc "i") (.loc "interface")
       [.if (.loc "i")
         [.expr (.call (.attr (.loc "self") "_ClassDirective__protectByInterface") [.loc "i", .loc "permission"])]
         []]]
     []) none e) kf h s = R := by
  cases hz : l.isEmpty with
  | true =>
    have : l = [] := List.isEmpty_iff.1 hz
    subst this
    rw [← hR e he]
    msteps [he.interface, hl.truth, hz, protectInterfaces, List.map_nil]
  | false =>
    msteps [he.interface, hl.truth, hz, hl.iter hz]
    refine emit_loop _ _ _ ifaceV (fun o => (protectInterfaces (.ty t) p [o]).map (rawOf N)) (RequireEnv p a b c d) (Handles t) (fun _ => True)
      (fun s l hs => hs.emit l) ?_ l _ _ _ _ _ (fun _ _ => trivial) he hr ?_
    · intro x env kf h he' s R _ hI hs hR
      rw [← hR (("i", ifaceV x) :: env) (hI.put _ _ (.inl rfl))]
      cases x with
      | none => msteps [ifaceV, protectInterfaces, List.map_nil]
      | some i =>
        msteps [ifaceV, protectInterfaces, hI.self, hI.permission, ml_byInterface, ↓m_byInterface N n hs, List.append_nil]
    · intro e' he'
      rw [← hR e' he', ← List.map_flatMap, interfaces_flat]
      msteps

theorem phase_attributes (N : Naming) (n : Nat) (hr : Handles t s) (l : List Name) (hl : ListArg nameV l a)
    (he : RequireEnv p a b c d e)
    (hR : ∀ e', RequireEnv p a b c d e' → kf (.next e') (emit s ((protectNames (.ty t) l p).map (rawOf N))) = R) :
    fork (exec (metaLang N (n + 2)) (.if (.loc "attributes")
     [.expr (.call (.attr (.loc "self") "_ClassDirective__protectNames") [.loc "attributes", .loc "permission"])]
     []) none e) kf h s = R := by
  rw [← hR e he]
  cases hz : l.isEmpty with
  | true =>
    have : l = [] := List.isEmpty_iff.1 hz
    subst this
    msteps [he.attributes, hl.truth, hz, protectNames, List.map_nil]
  | false =>
    msteps [he.attributes, he.self, he.permission, hl.truth, hz, ml_protectNames, ↓m_names N n hr l _ (hl.iter hz)]

theorem phase_setAttributes (N : Naming) (n : Nat) (hr : Handles t s) (l : List Name) (hl : ListArg nameV l c)
    (he : RequireEnv p a b c d e)
    (hR : ∀ e', RequireEnv p a b c d e' → kf (.next e') (emit s ((protectSetAttributes (.ty t) l p).map (rawOf N))) = R) :
    fork (exec (metaLang N (n + 2)) (.if (.loc "set_attributes")
     [.expr (.call (.attr (.loc "self") "_ClassDirective__protectSetAttributes") [.loc "set_attributes", .loc "permission"])]
     []) none e) kf h s = R := by
  rw [← hR e he]
  cases hz : l.isEmpty with
  | true =>
    have : l = [] := List.isEmpty_iff.1 hz
    subst this
    msteps [he.setAttributes, hl.truth, hz, protectSetAttributes, List.map_nil]
  | false =>
    msteps [he.setAttributes, he.self, he.permission, hl.truth, hz, ml_setAttributes, ↓m_setAttributes N (n + 1) hr l _ (hl.iter hz)]

theorem schema_loop (N : Naming) (n : Nat) (l : List (Option Iface)) : ∀ (s : St Reading) (e : Env),
    Handles t s → RequireEnv p a b c d e →
    (∀ e', (protectSchemas (.ty t) p l).2 = none → kf (.next e') (emit s ((protectSchemas (.ty t) p l).1.map (rawOf N))) = R) →
    (∀ e' x, (protectSchemas (.ty t) p l).2 = some x → kf (.exc x e') (emit s ((protectSchemas (.ty t) p l).1.map (rawOf N))) = R) →
    fork (forLoop (assign (metaLang N (n + 1)) (.loc "s")) (fun env => execs (metaLang N (n + 1))
       [.expr (.call (.attr (.loc "self") "_ClassDirective__protectSetSchema") [.loc "s", .loc "permission"])] none env) (l.map ifaceV) e) kf h s = R := by
  induction l with
  | nil =>
    intro s e hr he hR _
    rw [List.map_nil, fl_nil, ← hR e rfl]
    msteps [protectSchemas, List.map_nil]
  | cons x r ih =>
    intro s e hr he hR hE
    rw [List.map_cons, fl_cons]
    cases x with
    | none =>
      rw [← hE (("s", .v .none) :: e) .typeError rfl]
      msteps [ifaceV, he.self, he.permission, ml_setSchema, ↓m_setSchema_none N n hr, protectSchemas, List.map_nil]
    | some i =>
      msteps [ifaceV, he.self, he.permission, ml_setSchema, ↓m_setSchema N n hr]
      refine ih _ _ (hr.emit _) (he.put _ _ (.inr rfl)) ?_ ?_
      · intro e' h2
        rw [emit_emit, ← List.map_append]
        exact hR e' h2
      · intro e' x h2
        rw [emit_emit, ← List.map_append]
        exact hE e' x h2

theorem require_tail {k : PV → St Reading → Res β × St Reading} {h : Exn → St Reading → Res β × St Reading}
    (N : Naming) (n : Nat) (hr : Handles t s) (r : Require) (ha : ListArg nameV r.attributes a)
    (hb : ListArg ifaceV r.interface b) (hc : ListArg nameV r.setAttributes c) (hd : ListArg ifaceV r.setSchema d)
    (he : RequireEnv r.permission a b c d e) :
    fork (execs (metaLang N (n + 2)) requireTail none e) (leave k h) h s = ended k h N s
      (protectInterfaces (.ty t) r.permission r.interface ++ protectNames (.ty t) r.attributes r.permission
      ++ protectSetAttributes (.ty t) r.setAttributes r.permission ++ (protectSchemas (.ty t) r.permission r.setSchema).1,
        (protectSchemas (.ty t) r.permission r.setSchema).2) := by
  rw [show requireTail = [_, _, _, _] from rfl, es_cons]
  refine phase_interface N n hr r.interface hb he fun e he => ?_
  rw [as_next, es_cons]
  refine phase_attributes N n (hr.emit _) r.attributes ha he fun e he => ?_
  rw [as_next, es_cons]
  refine phase_setAttributes N n ((hr.emit _).emit _) r.setAttributes hc he fun e he => ?_
  rw [as_next]
  unfold ended
  cases hz : r.setSchema.isEmpty with
  | true =>
    rw [List.isEmpty_iff.1 hz]
    msteps [he.setSchema, hd.truth, hz, protectSchemas, List.append_nil, List.map_append]
  | false =>
    msteps [he.setSchema, hd.truth, hz, hd.iter hz]
    refine schema_loop N (n + 1) r.setSchema _ _ (hr.emit _) he ?_ ?_
    · intro e' h2
      msteps [h2, List.map_append, List.append_assoc]
    · intro e' x h2
      msteps [h2, List.map_append, List.append_assoc]

theorem or_cases (a b c d : Bool) : (a = true ∧ b = true ∧ c = true ∧ d = true) ∨ ((a && b && c && d) = false ∧
    (a = false ∨ (a = true ∧ b = false) ∨ (a = true ∧ b = true ∧ c = false) ∨ (a = true ∧ b = true ∧ c = true ∧ d = false))) := by
  cases a <;> cases b <;> cases c <;> cases d <;> simp

theorem require_head {k : PV → St Reading → Res β × St Reading} {h : Exn → St Reading → Res β × St Reading}
    (N : Naming) (n : Nat) (hr : Handles t s) (r : Require) (hp : IsPermission r.permission) {u : PV}
    (hx : RequireArgs r a b u c d) (R : Res β × St Reading)
    (h1 : (r.interface.isEmpty && r.attributes.isEmpty && r.setAttributes.isEmpty && r.setSchema.isEmpty) = true →
      (if r.likeClass.isSome then k (.v .none) (emit s ((mimicActions (.ty t) r.likeClass).map (rawOf N))) else h .configurationError s) = R)
    (h2 : (r.interface.isEmpty && r.attributes.isEmpty && r.setAttributes.isEmpty && r.setSchema.isEmpty) = false →
      falsyPermission r.permission = true →
      h .configurationError (emit s ((mimicActions (.ty t) r.likeClass).map (rawOf N))) = R)
    (h3 : (r.interface.isEmpty && r.attributes.isEmpty && r.setAttributes.isEmpty && r.setSchema.isEmpty) = false →
      falsyPermission r.permission = false → ∀ e, RequireEnv r.permission a b c d e →
      fork (execs (metaLang N (n + 2)) requireTail none e) (leave k h) h (emit s ((mimicActions (.ty t) r.likeClass).map (rawOf N))) = R) :
    fork (run (metaLang N (n + 2)) Metaconfigure.ClassDirective.require [.sym "self", .sym "_context", .v r.permission, a, b, u, c, d]) k h s
      = R := by
  rw [run_eq, require_body]
  rw [show Metaconfigure.ClassDirective.require.body.take 3 = [_, _, _] from rfl]
  have hu := hx.like
  subst hu
  rw [show Metaconfigure.ClassDirective.require.params = [_, _, _, _, _, _, _, _] from rfl]
  msteps [show Metaconfigure.ClassDirective.require.star = none from rfl, show Metaconfigure.ClassDirective.require.dstar = none from rfl]
  rw [es_append]
  cases hl : r.likeClass with
  | none =>
    rw [hl] at h1 h2 h3
    rcases or_cases r.interface.isEmpty r.attributes.isEmpty r.setAttributes.isEmpty r.setSchema.isEmpty with ⟨e1, e2, e3, e4⟩ | ⟨e0, e⟩
    · rw [← h1 (by rw [e1, e2, e3, e4]; rfl)]
      msteps [hx.interface.truth, hx.attributes.truth, hx.setAttributes.truth, hx.setSchema.truth, e1, e2, e3, e4, keyV, Option.isSome_none]
    · cases h5 : falsyPermission r.permission with
      | true =>
        rw [← h2 e0 h5]
        rcases e with e1 | ⟨e1, e2⟩ | ⟨e1, e2, e3⟩ | ⟨e1, e2, e3, e4⟩
        · msteps [hx.interface.truth, hx.attributes.truth, hx.setAttributes.truth, hx.setSchema.truth, keyV, truth_permission hp, h5, e1, mimicActions, List.map_nil]
        · msteps [hx.interface.truth, hx.attributes.truth, hx.setAttributes.truth, hx.setSchema.truth, keyV, truth_permission hp, h5, e1, e2, mimicActions, List.map_nil]
        · msteps [hx.interface.truth, hx.attributes.truth, hx.setAttributes.truth, hx.setSchema.truth, keyV, truth_permission hp, h5, e1, e2, e3, mimicActions, List.map_nil]
        · msteps [hx.interface.truth, hx.attributes.truth, hx.setAttributes.truth, hx.setSchema.truth, keyV, truth_permission hp, h5, e1, e2, e3, e4, mimicActions, List.map_nil]
      | false =>
        have h3 := h3 e0 h5
        msteps [mimicActions, List.map_nil]
        rw [show (mimicActions (.ty t) none).map (rawOf N) = [] from rfl, emit_nil] at h3
        rcases e with e1 | ⟨e1, e2⟩ | ⟨e1, e2, e3⟩ | ⟨e1, e2, e3, e4⟩
        · msteps [hx.interface.truth, hx.attributes.truth, hx.setAttributes.truth, hx.setSchema.truth, keyV, truth_permission hp, h5, e1]
          exact h3 _ (by constructor <;> msteps)
        · msteps [hx.interface.truth, hx.attributes.truth, hx.setAttributes.truth, hx.setSchema.truth, keyV, truth_permission hp, h5, e1, e2]
          exact h3 _ (by constructor <;> msteps)
        · msteps [hx.interface.truth, hx.attributes.truth, hx.setAttributes.truth, hx.setSchema.truth, keyV, truth_permission hp, h5, e1, e2, e3]
          exact h3 _ (by constructor <;> msteps)
        · msteps [hx.interface.truth, hx.attributes.truth, hx.setAttributes.truth, hx.setSchema.truth, keyV, truth_permission hp, h5, e1, e2, e3, e4]
          exact h3 _ (by constructor <;> msteps)
  | some u =>
    have hm : mtruth (.v u.val) = pure true := by cases u <;> rfl
    rw [hl] at h1 h2 h3
    rcases or_cases r.interface.isEmpty r.attributes.isEmpty r.setAttributes.isEmpty r.setSchema.isEmpty with ⟨e1, e2, e3, e4⟩ | ⟨e0, e⟩
    · rw [← h1 (by rw [e1, e2, e3, e4]; rfl)]
      msteps [hx.interface.truth, hx.attributes.truth, hx.setAttributes.truth, hx.setSchema.truth, keyV, hm, ml_mimic, ↓m_mimic N (n + 1) hr, e1, e2, e3, e4, Option.isSome_some, mimicActions, List.map_cons, List.map_nil]
    · cases h5 : falsyPermission r.permission with
      | true =>
        rw [← h2 e0 h5]
        rcases e with e1 | ⟨e1, e2⟩ | ⟨e1, e2, e3⟩ | ⟨e1, e2, e3, e4⟩
        · msteps [hx.interface.truth, hx.attributes.truth, hx.setAttributes.truth, hx.setSchema.truth, keyV, truth_permission hp, h5, hm, ml_mimic, ↓m_mimic N (n + 1) hr, e1, mimicActions, List.map_cons, List.map_nil]
        · msteps [hx.interface.truth, hx.attributes.truth, hx.setAttributes.truth, hx.setSchema.truth, keyV, truth_permission hp, h5, hm, ml_mimic, ↓m_mimic N (n + 1) hr, e1, e2, mimicActions, List.map_cons, List.map_nil]
        · msteps [hx.interface.truth, hx.attributes.truth, hx.setAttributes.truth, hx.setSchema.truth, keyV, truth_permission hp, h5, hm, ml_mimic, ↓m_mimic N (n + 1) hr, e1, e2, e3, mimicActions, List.map_cons, List.map_nil]
        · msteps [hx.interface.truth, hx.attributes.truth, hx.setAttributes.truth, hx.setSchema.truth, keyV, truth_permission hp, h5, hm, ml_mimic, ↓m_mimic N (n + 1) hr, e1, e2, e3, e4, mimicActions, List.map_cons, List.map_nil]
      | false =>
        have h3 := h3 e0 h5
        rw [show (mimicActions (.ty t) (some u)).map (rawOf N) = [rawOf N (.mimic (.ty t) u)] from rfl] at h3
        rcases e with e1 | ⟨e1, e2⟩ | ⟨e1, e2, e3⟩ | ⟨e1, e2, e3, e4⟩
        · msteps [hx.interface.truth, hx.attributes.truth, hx.setAttributes.truth, hx.setSchema.truth, keyV, truth_permission hp, h5, hm, ml_mimic, ↓m_mimic N (n + 1) hr, e1]
          exact h3 _ (by constructor <;> msteps)
        · msteps [hx.interface.truth, hx.attributes.truth, hx.setAttributes.truth, hx.setSchema.truth, keyV, truth_permission hp, h5, hm, ml_mimic, ↓m_mimic N (n + 1) hr, e1, e2]
          exact h3 _ (by constructor <;> msteps)
        · msteps [hx.interface.truth, hx.attributes.truth, hx.setAttributes.truth, hx.setSchema.truth, keyV, truth_permission hp, h5, hm, ml_mimic, ↓m_mimic N (n + 1) hr, e1, e2, e3]
          exact h3 _ (by constructor <;> msteps)
        · msteps [hx.interface.truth, hx.attributes.truth, hx.setAttributes.truth, hx.setSchema.truth, keyV, truth_permission hp, h5, hm, ml_mimic, ↓m_mimic N (n + 1) hr, e1, e2, e3, e4]
          exact h3 _ (by constructor <;> msteps)

theorem m_require {k : PV → St Reading → Res β × St Reading} {h : Exn → St Reading → Res β × St Reading}
    (N : Naming) (n : Nat) (hr : Handles t s) (r : Require) (hp : IsPermission r.permission) {u : PV}
    (hx : RequireArgs r a b u c d) :
    fork (run (metaLang N (n + 2)) Metaconfigure.ClassDirective.require [.sym "self", .sym "_context", .v r.permission, a, b, u, c, d]) k h s
      = ended k h N s (emitRequire (.ty t) r) := by
  refine require_head N n hr r hp hx _ ?_ ?_ ?_
  · intro h1
    unfold emitRequire
    rw [if_pos h1]
    cases r.likeClass <;> simp only [ended, Option.isSome_none, Option.isSome_some, if_true, if_false, List.map_nil, emit_nil, Bool.false_eq_true]
  · intro h1 h2
    unfold emitRequire
    rw [if_neg (by rw [h1]; exact Bool.false_ne_true), if_pos h2]
    rfl
  · intro h1 h2 e he
    unfold emitRequire
    rw [if_neg (by rw [h1]; exact Bool.false_ne_true), if_neg (by rw [h2]; exact Bool.false_ne_true)]
    rw [require_tail N n (hr.emit _) r hx.attributes hx.interface hx.setAttributes hx.setSchema he]
    unfold ended
    simp only [emit_emit, List.map_append, List.append_assoc]

theorem require_defaults {k : PV → St Reading → Res β × St Reading} {h : Exn → St Reading → Res β × St Reading}
    (L : Lang Reading) (x1 x2 x3 x4 x5 : PV) :
    fork (run L Metaconfigure.ClassDirective.require [x1, x2, x3, x4, x5]) k h s
      = fork (run L Metaconfigure.ClassDirective.require [x1, x2, x3, x4, x5, .v .none, .v .none, .v .none]) k h s := by
  rw [run_eq, run_eq, show Metaconfigure.ClassDirective.require.params = [_, _, _, _, _, _, _, _] from rfl]
  simp only [↓fork_bp_nil, ↓fork_bp_default, ↓ev_none]

theorem m_allow {k : PV → St Reading → Res β × St Reading} {h : Exn → St Reading → Res β × St Reading}
    (N : Naming) (n : Nat) (hr : Handles t s) (attributes : List Name) (interface : List (Option Iface))
    (ha : ListArg nameV attributes a) (hb : ListArg ifaceV interface b) :
    fork (run (metaLang N (n + 3)) Metaconfigure.ClassDirective.allow [.sym "self", .sym "_context", a, b]) k h s
      = ended k h N s (emitSub (.ty t) (.allow attributes interface)) := by
  msteps [Metaconfigure.ClassDirective.allow, ml_require]
  rw [← run_eq, require_defaults]
  exact m_require N n hr ⟨publicPermission, attributes, interface, none, [], []⟩ trivial ⟨ha, hb, rfl, .none, .none⟩

theorem m_implements {k : PV → St Reading → Res β × St Reading} {h : Exn → St Reading → Res β × St Reading}
    (N : Naming) (n : Nat) (hr : Handles t s) (l : List Iface) (hb : miter b = pure (l.map PV.iface)) :
    fork (run (metaLang N n) Metaconfigure.ClassDirective.implements [.sym "self", .sym "_context", b]) k h s
      = ended k h N s (emitSub (.ty t) (.implements l)) := by
  msteps [Metaconfigure.ClassDirective.implements, hb]
  refine emit_loop _ _ _ PV.iface (fun i => [rawOf N (.classImplements (.ty t) i), rawOf N (.provideInterface i)])
    (fun e => Env.get? e "self" = some (.sym "self") ∧ Env.get? e "_context" = some (.sym "_context")) (Handles t) (fun _ => True)
    (fun s l hs => hs.emit l) ?_ l _ _ _ _ _ (fun _ _ => trivial) ?_ hr ?_
  · intro x env kf h he s R _ hI hs hR
    rw [← hR ((("interface", .iface x) :: env)) (by msteps [hI.1, hI.2]; exact ⟨trivial, trivial⟩)]
    msteps [hI.1, hI.2, ↓own_cls hs, rawOf, raw, nameV, Key.val, dotted, List.cons_append, List.nil_append]
  · msteps; exact ⟨trivial, trivial⟩
  · intro env' _
    msteps [ended, emitSub, List.map_flatMap, List.map_cons, List.map_nil]

theorem m_init {k : PV → St Reading → Res β × St Reading} {h : Exn → St Reading → Res β × St Reading}
    (N : Naming) (n : Nat) :
    fork (run (metaLang N (n + 1)) Metaconfigure.ClassDirective.__init__ [.sym "self", .sym "_context", .v (.type t)]) k h s
      = k (.v .none) { s with app := { s.app with attrs :=
          ("_ClassDirective__context", .sym "_context") :: ("_ClassDirective__class", .v (.type t))
            :: ("_ClassDirective__id", .v (.str 0 (N.clsModule t ++ "." ++ N.clsName t))) :: s.app.attrs } } := by
  msteps [Metaconfigure.ClassDirective.__init__, ml_dotted, Metaconfigure.dottedName, ownAttr]

theorem m_init_module {k : PV → St Reading → Res β × St Reading} {h : Exn → St Reading → Res β × St Reading}
    (N : Naming) (n : Nat) (m : String) :
    fork (run (metaLang N (n + 1)) Metaconfigure.ClassDirective.__init__ [.sym "self", .sym "_context", .v (.module m)]) k h s
      = h (.attributeError "__module__") s := by
  msteps [Metaconfigure.ClassDirective.__init__, ml_dotted, Metaconfigure.dottedName, ownAttr]
end

/-! ## Modules -/

/-- metaconfigure.py:203-205 and 208-210. -/
def seenBody : List Stmt :=
  [.if (.cmp .notIn (.loc "name") (.loc "seen"))
       [.assign (.sub (.loc "seen") (.loc "name")) (.num (1)),
        .aug "+" (.loc "%yield") (.list [.loc "name"])]
       []]

section
variable {β : Type} {kf : Flow → St Reading → Res β × St Reading} {h : Exn → St Reading → Res β × St Reading}

/-- The local variables of `_names`. -/
structure NamesEnv (d : Nat) (acc : List Name) (b : PV) (e : Env) : Prop where
  seen : Env.get? e "seen" = some (.dict d)
  yielded : Env.get? e "%yield" = some (.list (acc.map nameV))
  interfaces : Env.get? e "interfaces" = some b

/-- The dictionary `seen` holds the names seen. -/
def Holds (D : PyDict Name Val) (seen : List Name) : Prop := ∀ x, D.mem x = true ↔ x ∈ seen

theorem holds_set {D : PyDict Name Val} {seen : List Name} (hD : Holds D seen) (n : Name) (v : Val) : Holds (D.set n v) (n :: seen) := by
  intro x
  unfold PyDict.mem
  rw [PyDict.get?_set]
  by_cases hx : x = n
  · subst hx; simp
  · have := hD x
    unfold PyDict.mem at this
    simp [hx, this, Ne.symm hx]

theorem seen_loop (N : Naming) (n : Nat) (d : Nat) (b : PV) (P : Res β × St Reading → Prop) (l : List Name) : ∀ (seen acc : List Name) (e : Env) (s : St Reading),
    NamesEnv d acc b e → Holds (s.dicts d) seen →
    (∀ e' D, NamesEnv d (acc ++ (unseen seen l).1) b e' → Holds D (unseen seen l).2 → P (kf (.next e') (withDict s d D))) →
    P (fork (forLoop (assign (metaLang N n) (.loc "name")) (fun env => execs (metaLang N n) seenBody none env) (l.map nameV) e) kf h s) := by
  induction l with
  | nil =>
    intro seen acc e s he hs hR
    have := hR e (s.dicts d) (by rw [unseen, List.append_nil]; exact he) hs
    rw [withDict_same] at this
    rw [List.map_nil, fl_nil]
    exact this
  | cons x r ih =>
    intro seen acc e s he hs hR
    rw [List.map_cons, fl_cons]
    unfold unseen at hR
    by_cases hx : x ∈ seen
    · have hm : (s.dicts d).mem x = true := (hs x).2 hx
      rw [if_pos hx] at hR
      msteps [seenBody, he.seen, nameV, hm]
      refine ih seen acc _ s ?_ hs hR
      constructor <;> msteps [he.1, he.2, he.3]
    · have hm : (s.dicts d).mem x = false := by
        cases hm : (s.dicts d).mem x with
        | false => rfl
        | true => exact absurd ((hs x).1 hm) hx
      rw [if_neg hx] at hR
      msteps [seenBody, he.seen, he.yielded, nameV, hm]
      change P (fork (forLoop _ _ _ _) _ _ (withDict s d ((s.dicts d).set x (.int 1))))
      refine ih (x :: seen) (acc ++ [x]) _ _ ?_ ?_ ?_
      · constructor <;> msteps [he.1, he.2, he.3, List.map_append, List.map_cons, List.map_nil, nameV]
      · rw [withDict_self]; exact holds_set hs x _
      · intro e' D he' hD
        rw [withDict_twice]
        refine hR e' D ?_ hD
        rw [List.append_assoc] at he'
        exact he'
end

end ZS.Props
