import Verif.Model.PyZcml
import Verif.Props.SourceInit
import Mathlib.Data.List.Nodup

/-!
# C81: the source of permission.py
-/

namespace ZS.Props
open ZS ZS.PyC ZS.Src
variable {A β : Type}
set_option maxHeartbeats 1000000

section
variable (G : Registry)
theorem pl_glob : (permLang G : Lang A).glob = pglob := (rfl)
theorem pl_call : (permLang G : Lang A).call = pcall G := (rfl)
theorem pl_method : (permLang G : Lang A).method = pmethod := (rfl)
theorem pl_same : (permLang G : Lang A).same = PyC.same := (rfl)
theorem pl_compare : (permLang G : Lang A).compare = pcompare := (rfl)
theorem pl_bin : (permLang G : Lang A).bin = pbin := (rfl)
theorem pl_truth : (permLang G : Lang A).truth = ptruth G := (rfl)
theorem pl_iter : (permLang G : Lang A).iter = piter := (rfl)
theorem pl_raising (x : PV) : raising (permLang G : Lang A) x = (ltoExn x).getD .typeError := by
  unfold raising; rw [show (permLang G : Lang A).toExn = ltoExn from rfl]; cases ltoExn x <;> rfl
theorem pl_assign_tuple (ts : List Expr) (xs : List PV) (env : Env) :
    assign (permLang G : Lang A) (.tuple ts) (.tuple xs) env = assignAll (assign1 (permLang G)) ts xs env := (rfl)

theorem pglo_CheckerPublic : (pglob "CheckerPublic" : M A PV) = pure (.v publicV) := (rfl)
theorem pglo_zope_Public : (pglob "zope_Public" : M A PV) = pure (.v publicPermission) := (rfl)
theorem pglo_query : (pglob "queryUtility" : M A PV) = pure (.sym "queryUtility") := (rfl)
theorem pglo_utilities : (pglob "getUtilitiesFor" : M A PV) = pure (.sym "getUtilitiesFor") := (rfl)
theorem pglo_IPermission : (pglob "IPermission" : M A PV) = pure (.sym "IPermission") := (rfl)
theorem pglo_ValueError : (pglob "ValueError" : M A PV) = pure (.sym "ValueError") := (rfl)
theorem pglo_SimpleTerm : (pglob "SimpleTerm" : M A PV) = pure (.sym "SimpleTerm") := (rfl)
theorem pglo_SimpleVocabulary : (pglob "SimpleVocabulary" : M A PV) = pure (.sym "SimpleVocabulary") := (rfl)
theorem pglo_sorted : (pglob "sorted" : M A PV) = pure (.sym "sorted") := (rfl)
theorem pglo_operator : (pglob "operator" : M A PV) = pure (.sym "operator") := (rfl)

theorem pcall_query (a : Nat) (n : String) (c : PV) : pcall (A := A) G (.sym "queryUtility") [.sym "IPermission", .v (.str a n)] [("context", c)] =
    (match ZS.queryUtility (G.utilities c) n with
      | some o => pure (.v (.obj o))
      | none => pure (.v .none)) := (rfl)
theorem pcall_utilities (c : PV) (kw : List (Name × PV)) : pcall (A := A) G (.sym "getUtilitiesFor") [.sym "IPermission", c] kw =
    pure (.list ((G.utilities c).map fun u => .tuple [strV u.1, .v (.obj u.2)])) := (rfl)
theorem pcall_ValueError (l : List PV) (kw : List (Name × PV)) : pcall (A := A) G (.sym "ValueError") l kw = pure (.exn .valueError) := (rfl)
theorem pcall_term2 (x : PV) (a : Nat) (t : String) (kw : List (Name × PV)) :
    pcall (A := A) G (.sym "SimpleTerm") [x, .v (.str a t)] kw = pure (.tuple [x, strV (G.esc t), strV ""]) := (rfl)
theorem pcall_term3 (x n : PV) (a : Nat) (t : String) (kw : List (Name × PV)) :
    pcall (A := A) G (.sym "SimpleTerm") [x, .v (.str a t), n] kw = pure (.tuple [x, strV (G.esc t), n]) := (rfl)
theorem pcall_vocabulary (l : List PV) (kw : List (Name × PV)) : pcall (A := A) G (.sym "SimpleVocabulary") [.list l] kw =
    (match termsOf l with
      | some ts =>
        match simpleVocabulary ts with
        | .ok _ => pure (.list l)
        | .err e => M.throw e
        | .diverge => M.diverge
      | none => stuck) := (rfl)
theorem pcall_sorted (l : List PV) : pcall (A := A) G (.sym "sorted") [.list l] [("key", .bound (.sym "attrgetter") "title")] =
    pure (.list (l.mergeSort byTitle)) := (rfl)
theorem pdo_attrgetter (a : Nat) (n : String) (kw : List (Name × PV)) :
    (pmethod (.sym "operator") "attrgetter" [.v (.str a n)] kw : M A PV) = pure (.bound (.sym "attrgetter") n) := (rfl)
theorem pcmp_eq (a b : Nat) (x y : String) : (pcompare .eq (.v (.str a x)) (.v (.str b y)) : M A PV) = pure (.v (.bool (decide (x = y)))) := (rfl)
theorem pcmp_ne (a b : Nat) (x y : String) : (pcompare .ne (.v (.str a x)) (.v (.str b y)) : M A PV) = pure (.v (.bool (decide (x ≠ y)))) := (rfl)
theorem padd (x y : List PV) : (pbin "+" (.list x) (.list y) : M A PV) = pure (.list (x ++ y)) := (rfl)
theorem piter_list (l : List PV) : (piter (.list l) : M A (List PV)) = pure l := (rfl)
theorem ptruth_bool (b : Bool) : (ptruth G (.v (.bool b)) : M A Bool) = pure b := (rfl)
theorem ptruth_none : (ptruth G (.v .none) : M A Bool) = pure false := (rfl)
theorem ptruth_obj (o : Nat) : (ptruth G (.v (.obj o)) : M A Bool) = pure (G.truth o) := (rfl)
end

/-- `pysteps` for `permLang`. -/
syntax "psteps" ("[" Lean.Parser.Tactic.simpLemma,* "]")? : tactic
macro_rules
  | `(tactic| psteps) => `(tactic| psteps [])
  | `(tactic| psteps [$ts,*]) => `(tactic|
    pysteps [↓ea_list, ↓ex_aug, pl_glob, pl_call, pl_method, pl_same, pl_compare, pl_bin, pl_truth, pl_iter, pl_raising, pl_assign_tuple,
      pglo_CheckerPublic, pglo_zope_Public, pglo_query, pglo_utilities, pglo_IPermission, pglo_ValueError, pglo_SimpleTerm,
      pglo_SimpleVocabulary, pglo_sorted, pglo_operator, pcall_query, pcall_utilities, pcall_ValueError, pcall_term2, pcall_term3,
      pcall_sorted, pdo_attrgetter, pcmp_eq, pcmp_ne, padd, piter_list, ptruth_bool, ptruth_none, ptruth_obj, $ts,*])

/-- A permission id as a value. -/
def permVal : PermId → Val
  | .checkerPublic => publicV
  | .id n => .str 0 n

/-- A result, with nothing done. -/
def giving {α : Type} : Res α → M A α
  | .ok a => pure a
  | .err e => M.throw e
  | .diverge => M.diverge

/-- **C81** `Permission(id, title, description)` (permission.py:39-42): the attributes are the arguments; title and description
are empty if left out. -/
theorem C81_Permission_init (X : Ctx Attrs) (i t d : PV) (s : St Attrs) :
    run (objLang X) Permission.Permission.__init__ [.sym "self", i, t, d] s
      = (.ok (.v .none), given s [("description", d), ("title", t), ("id", i)])
    ∧ run (objLang X) Permission.Permission.__init__ [.sym "self", i] s
      = (.ok (.v .none), given s [("description", strV ""), ("title", strV ""), ("id", i)]) := by
  constructor <;> refine fork_run ?_
  · dsteps [Permission.Permission.__init__, obj_setattr, oset]; rfl
  · dsteps [Permission.Permission.__init__, obj_setattr, oset]; rfl

/-- **C81** `checkPermission` (permission.py:45-53): the utilities asked are those of the context given. -/
theorem C81_checkPermission (G : Registry) (c : PV) (p : PermId) :
    (run (permLang G) Permission.checkPermission [c, .v (permVal p)] : M A PV)
      = unit (giving (checkPermissionDefined (G.utilities c) G.truth p)) := by
  apply ext_fork
  intro s
  cases p with
  | checkerPublic => psteps [Permission.checkPermission, permVal, checkPermissionDefined, giving]
  | id n =>
    have hn : (Val.str 0 n = publicV) = False := by unfold publicV; simp
    cases hq : ZS.queryUtility (G.utilities c) n with
    | none => psteps [Permission.checkPermission, permVal, checkPermissionDefined, giving, hn, hq]
    | some o =>
      cases ht : G.truth o <;>
        psteps [Permission.checkPermission, permVal, checkPermissionDefined, giving, hn, hq, ht]

/-- The local variables of `allPermissions`. -/
theorem all_loop (G : Registry) (kf : Flow → St A → Res β × St A) (h : Exn → St A → Res β × St A) (s : St A) (R : Res β × St A) (us : Utilities) :
    ∀ (acc : List String) (e : Env), Env.get? e "%yield" = some (.list (acc.map strV)) →
      (∀ e', Env.get? e' "%yield" = some (.list ((acc ++ allPermissions us).map strV)) → kf (.next e') s = R) →
      fork (forLoop (assign (permLang G) (.tuple [.loc "name", .loc "_permission"])) (fun env => execs (permLang G)
        [.if (.cmp .ne (.loc "name") (.glo "zope_Public")) [.aug "+" (.loc "%yield") (.list [.loc "name"])] []] none env)
        (us.map fun u => .tuple [strV u.1, .v (.obj u.2)]) e) kf h s = R := by
  induction us with
  | nil =>
    intro acc e he hR
    rw [List.map_nil, fl_nil]
    exact hR e (by rw [allPermissions, List.append_nil]; exact he)
  | cons u r ih =>
    intro acc e he hR
    rw [List.map_cons, fl_cons]
    by_cases hu : u.1 = zopePublic
    · psteps [strV, publicPermission, hu]
      refine ih acc _ (by psteps [he]) ?_
      intro e' he'
      refine hR e' ?_
      rw [allPermissions, if_neg (by simpa using hu)]
      exact he'
    · psteps [strV, publicPermission, hu, he]
      refine ih (acc ++ [u.1]) _ (by psteps [List.map_append, List.map_cons, List.map_nil]) ?_
      intro e' he'
      refine hR e' ?_
      rw [allPermissions, if_pos (by simpa using hu)]
      rw [List.append_assoc] at he'
      exact he'

/-- **C81** `allPermissions` (permission.py:56-62): without an argument it is the global utilities. -/
theorem C81_allPermissions (G : Registry) (c : PV) :
    (run (permLang G) Permission.allPermissions [c] : M A PV) = pure (.list ((allPermissions (G.utilities c)).map strV))
    ∧ (run (permLang G) Permission.allPermissions [] : M A PV) = pure (.list ((allPermissions (G.utilities (.v .none))).map strV)) := by
  constructor <;> apply ext_fork <;> intro s
  · psteps [Permission.allPermissions]
    refine all_loop G _ _ s _ _ [] _ (by psteps [List.map_nil]) ?_
    intro e he
    psteps [he, List.nil_append]
  · psteps [Permission.allPermissions]
    refine all_loop G _ _ s _ _ [] _ (by psteps [List.map_nil]) ?_
    intro e he
    psteps [he, List.nil_append]

/-- A term as a value. -/
def termV {V : Type} (val : V → Val) (t : Term V) : PV := .tuple [.v (val t.value), strV t.token, strV t.title]

theorem termOf_termV {V : Type} (val : V → Val) (t : Term V) : termOf (termV val t) = some ⟨val t.value, t.token, t.title⟩ := rfl

theorem termsOf_termV {V : Type} (val : V → Val) (l : List (Term V)) :
    termsOf (l.map (termV val)) = some (l.map fun t => ⟨val t.value, t.token, t.title⟩) := by
  induction l with
  | nil => rfl
  | cons t r ih => rw [List.map_cons, termsOf, ih, termOf_termV]; rfl

theorem vocabulary_map {V : Type} [DecidableEq V] (val : V → Val) (hv : Function.Injective val) (l : List (Term V)) :
    simpleVocabulary (l.map fun t => (⟨val t.value, t.token, t.title⟩ : Term Val))
      = (match simpleVocabulary l with
        | .ok l => .ok (l.map fun t => ⟨val t.value, t.token, t.title⟩)
        | .err e => .err e
        | .diverge => .diverge) := by
  unfold simpleVocabulary
  have h1 : (l.map fun t => (⟨val t.value, t.token, t.title⟩ : Term Val)).map (·.value) = (l.map (·.value)).map val := by
    rw [List.map_map, List.map_map]; rfl
  have h2 : (l.map fun t => (⟨val t.value, t.token, t.title⟩ : Term Val)).map (·.token) = l.map (·.token) := by
    rw [List.map_map]; rfl
  simp only [h1, h2, List.nodup_map_iff hv]
  split <;> rfl

theorem vocabulary_cases {V : Type} [DecidableEq V] (l : List (Term V)) :
    simpleVocabulary l = .ok l ∨ simpleVocabulary l = .err .valueError := by
  unfold simpleVocabulary
  split
  · exact .inl rfl
  · exact .inr rfl

/-- The vocabulary of terms, as the source makes it. -/
theorem vocabulary_eq {V : Type} [DecidableEq V] (G : Registry) (val : V → Val) (hv : Function.Injective val) (l : List (Term V))
    (kw : List (Name × PV)) : (pcall G (.sym "SimpleVocabulary") [.list (l.map (termV val))] kw : M A PV)
      = (do let r ← giving (simpleVocabulary l); pure (.list (r.map (termV val)))) := by
  rw [pcall_vocabulary, termsOf_termV]
  dsimp only
  rw [vocabulary_map val hv]
  rcases vocabulary_cases l with h | h <;> rw [h] <;> rfl

theorem terms_loop (G : Registry) (kf : Flow → St A → Res β × St A) (h : Exn → St A → Res β × St A) (s : St A) (R : Res β × St A) (us : Utilities) :
    ∀ (acc : List (Term Nat)) (e : Env), Env.get? e "terms" = some (.list (acc.map (termV .obj))) →
      (∀ e', Env.get? e' "terms" = some (.list ((acc ++ us.map fun u => (⟨u.2, G.esc u.1, ""⟩ : Term Nat)).map (termV .obj))) → kf (.next e') s = R) →
      fork (forLoop (assign (permLang G) (.tuple [.loc "name", .loc "permission"])) (fun env => execs (permLang G)
        [.aug "+" (.loc "terms") (.list [.call (.glo "SimpleTerm") [.loc "permission", .loc "name"]])] none env)
        (us.map fun u => .tuple [strV u.1, .v (.obj u.2)]) e) kf h s = R := by
  induction us with
  | nil =>
    intro acc e he hR
    rw [List.map_nil, fl_nil]
    exact hR e (by rw [List.map_nil, List.append_nil]; exact he)
  | cons u r ih =>
    intro acc e he hR
    rw [List.map_cons, fl_cons]
    psteps [strV, he]
    refine ih (acc ++ [⟨u.2, G.esc u.1, ""⟩]) _ (by psteps [List.map_append, List.map_cons, List.map_nil, termV, strV]) ?_
    intro e' he'
    refine hR e' ?_
    rw [List.append_assoc] at he'
    exact he'

/-- **C81** `PermissionsVocabulary` (permission.py:65-74). -/
theorem C81_PermissionsVocabulary (G : Registry) (c : PV) :
    (run (permLang G) Permission.PermissionsVocabulary [c] : M A PV)
      = (do
        let r ← giving (permissionsVocabulary G.esc (G.utilities c))
        pure (.list (r.map (termV .obj)))) := by
  apply ext_fork
  intro s
  rw [run_eq, show Permission.PermissionsVocabulary.params = [_] from rfl, show Permission.PermissionsVocabulary.body = [_, _, _] from rfl]
  psteps [show Permission.PermissionsVocabulary.star = none from rfl, show Permission.PermissionsVocabulary.dstar = none from rfl, pl_call]
  refine terms_loop G _ _ s _ _ [] _ (by psteps [List.map_nil]) ?_
  intro e he
  psteps [he, List.nil_append, vocabulary_eq G Val.obj (fun _ _ h => by cases h; rfl)]
  unfold permissionsVocabulary
  rcases vocabulary_cases ((G.utilities c).map fun u => (⟨u.2, G.esc u.1, ""⟩ : Term Nat)) with h | h <;> rw [h] <;> rfl

theorem ids_loop (G : Registry) (kf : Flow → St A → Res β × St A) (h : Exn → St A → Res β × St A) (s : St A) (R : Res β × St A) (us : Utilities) :
    ∀ (acc : List (Term PermId)) (b : Bool) (e : Env), Env.get? e "terms" = some (.list (acc.map (termV permVal))) →
      Env.get? e "has_public" = some (.v (.bool b)) →
      (∀ e', Env.get? e' "terms" = some (.list ((acc ++ (idTerms G.esc us).1).map (termV permVal))) →
        Env.get? e' "has_public" = some (.v (.bool (b || (idTerms G.esc us).2))) → kf (.next e') s = R) →
      fork (forLoop (assign (permLang G) (.tuple [.loc "name", .loc "_permission"])) (fun env => execs (permLang G)
        [.if (.cmp .eq (.loc "name") (.glo "zope_Public"))
          [.assign (.loc "has_public") (.true)]
          [.aug "+" (.loc "terms") (.list [.call (.glo "SimpleTerm") [.loc "name", .loc "name", .loc "name"]])]] none env)
        (us.map fun u => .tuple [strV u.1, .v (.obj u.2)]) e) kf h s = R := by
  induction us with
  | nil =>
    intro acc b e he hb hR
    rw [List.map_nil, fl_nil]
    exact hR e (by rw [idTerms, List.append_nil]; exact he) (by rw [idTerms, Bool.or_false]; exact hb)
  | cons u r ih =>
    intro acc b e he hb hR
    rw [List.map_cons, fl_cons]
    by_cases hu : u.1 = zopePublic
    · psteps [strV, publicPermission, hu]
      refine ih acc true _ (by psteps [he]) (by psteps) ?_
      intro e' he' hb'
      refine hR e' ?_ ?_
      · rw [idTerms, if_pos hu]; exact he'
      · rw [idTerms, if_pos hu, Bool.or_true]; rw [Bool.true_or] at hb'; exact hb'
    · psteps [strV, publicPermission, hu, he]
      refine ih (acc ++ [⟨.id u.1, G.esc u.1, u.1⟩]) b _
        (by psteps [List.map_append, List.map_cons, List.map_nil, termV, strV, permVal]) (by psteps [hb]) ?_
      intro e' he' hb'
      refine hR e' ?_ ?_
      · rw [idTerms, if_neg hu]; rw [List.append_assoc] at he'; exact he'
      · rw [idTerms, if_neg hu]; exact hb'

theorem permId_inj : Function.Injective permVal := by
  intro a b h
  cases a <;> cases b <;> simp [permVal, publicV] at h <;> first | rfl | (rw [h])

theorem sorted_terms (l : List (Term PermId)) : (l.map (termV permVal)).mergeSort byTitle
    = (l.mergeSort fun a b => decide (a.title ≤ b.title)).map (termV permVal) := by
  rw [List.map_mergeSort]
  intro a _ b _
  rfl

/-- **C81** `PermissionIdsVocabulary` (permission.py:80-107). -/
theorem C81_PermissionIdsVocabulary (G : Registry) (c : PV) :
    (run (permLang G) Permission.PermissionIdsVocabulary [c] : M A PV)
      = (do
        let r ← giving (permissionIdsVocabulary G.esc (G.utilities c))
        pure (.list (r.map (termV permVal)))) := by
  apply ext_fork
  intro s
  rw [run_eq, show Permission.PermissionIdsVocabulary.params = [_] from rfl,
    show Permission.PermissionIdsVocabulary.body = [_, _, _, _, _, _] from rfl]
  psteps [show Permission.PermissionIdsVocabulary.star = none from rfl, show Permission.PermissionIdsVocabulary.dstar = none from rfl]
  refine ids_loop G _ _ s _ _ [] false _ (by psteps [List.map_nil]) (by psteps) ?_
  intro e he hb
  rw [Bool.false_or] at hb
  rw [List.nil_append] at he
  unfold permissionIdsVocabulary
  cases hp : (idTerms G.esc (G.utilities c)).2 with
  | false =>
    rw [hp] at hb
    psteps [he, hb, sorted_terms, vocabulary_eq G permVal permId_inj]
    generalize (idTerms G.esc (G.utilities c)).1.mergeSort (fun a b => decide (a.title ≤ b.title)) = l
    rcases vocabulary_cases l with h | h <;> rw [h] <;> rfl
  | true =>
    rw [hp] at hb
    psteps [he, hb, sorted_terms, strV, publicPermission]
    generalize (idTerms G.esc (G.utilities c)).1.mergeSort (fun a b => decide (a.title ≤ b.title)) = l
    rw [show [PV.tuple [.v publicV, .v (.str 0 (G.esc zopePublic)), .v (.str 0 "Public")]] ++ l.map (termV permVal)
      = (⟨.checkerPublic, G.esc zopePublic, "Public"⟩ :: l : List (Term PermId)).map (termV permVal) from rfl, vocabulary_eq G permVal permId_inj]
    rcases vocabulary_cases (⟨.checkerPublic, G.esc zopePublic, "Public"⟩ :: l : List (Term PermId)) with h | h <;> rw [h] <;> rfl

end ZS.Props
