import Verif.Source.Checker
import Verif.Source.Protectclass
import Verif.Source.Metaconfigure
import Verif.Lemmas.PyDeclRun
import Verif.Props.SourceChecker

/-!
# C79: the source of the declarations does what the model says
-/

namespace ZS.Props
open ZS ZS.PyC ZS.Src
variable {A : Type}
set_option maxHeartbeats 1000000

theorem isText_translate (p : Val) : translate p = if isText p zopePublic then publicV else p := by
  unfold translate isText
  cases p <;> simp


/-- protectclass.py:23-49: the source of `protectName` is the model's, for every class, name, permission and
state, with the exceptions it raises. -/
theorem C79_protectName (X : Ctx A) (t : Val) (k : Key) (hk : definable t = some k) (a : Nat) (n : Name) (p : Val) :
    run (declLang X) Protectclass.protectName [.v t, .v (.str a n), .v p] = unit (protectName t n p) := by
  apply ext_fork
  intro s
  unfold protectName getOrCreate
  rw [isText_translate]
  by_cases hc : getCheckerFor s k = .none
  · cases hp : isText p zopePublic <;>
      dforks [Protectclass.protectName, lookUp, hk, hc, hp, checkerDicts, dictSet]
  · cases hd : checkerDicts (getCheckerFor s k) with
    | none => cases hp : isText p zopePublic <;>
        dforks [Protectclass.protectName, lookUp, hk, hc, hp, hd, readDict, dictSet]
    | some d =>
      obtain ⟨g, st⟩ := d
      cases hp : isText p zopePublic <;>
        dforks [Protectclass.protectName, lookUp, hk, hc, hp, hd, readDict_eq hd, dictSet]


/-- metaconfigure.py:180-197: `protectModule` does to a module what `protectName` does to a class. -/
theorem C79_protectModule (X : Ctx A) (t : Val) (k : Key) (hk : definable t = some k) (a : Nat) (n : Name) (p : Val) :
    run (declLang X) Metaconfigure.protectModule [.v t, .v (.str a n), .v p] = unit (protectName t n p) := by
  apply ext_fork
  intro s
  unfold protectName getOrCreate
  rw [isText_translate]
  by_cases hc : getCheckerFor s k = .none
  · cases hp : isText p zopePublic <;>
      dforks [Metaconfigure.protectModule, lookUp, hk, hc, hp, checkerDicts, dictSet]
  · cases hd : checkerDicts (getCheckerFor s k) with
    | none => cases hp : isText p zopePublic <;>
        dforks [Metaconfigure.protectModule, lookUp, hk, hc, hp, hd, readDict, dictSet]
    | some d =>
      obtain ⟨g, st⟩ := d
      cases hp : isText p zopePublic <;>
        dforks [Metaconfigure.protectModule, lookUp, hk, hc, hp, hd, readDict_eq hd, dictSet]

/-- protectclass.py:52-73: the source of `protectSetAttribute` is the model's. -/
theorem C79_protectSetAttribute (X : Ctx A) (t : Val) (k : Key) (hk : definable t = some k) (a : Nat) (n : Name) (p : Val) :
    run (declLang X) Protectclass.protectSetAttribute [.v t, .v (.str a n), .v p] = unit (protectSetAttribute t n p) := by
  apply ext_fork
  intro s
  unfold protectSetAttribute getOrCreate
  rw [isText_translate]
  by_cases hc : getCheckerFor s k = .none
  · cases hp : isText p zopePublic <;>
      dforks [Protectclass.protectSetAttribute, lookUp, hk, hc, hp, checkerDicts, dictSet]
  · cases hd : checkerDicts (getCheckerFor s k) with
    | none => cases hp : isText p zopePublic <;>
        dforks [Protectclass.protectSetAttribute, lookUp, hk, hc, hp, hd, writeDict, dictSet]
    | some d =>
      obtain ⟨g, st⟩ := d
      cases hp : isText p zopePublic <;>
        dforks [Protectclass.protectSetAttribute, lookUp, hk, hc, hp, hd, writeDict_eq hd, dictSet]

/-- The local variables other than `name` are the same. -/
def Agree (env' env : Env) (n : Name) : Prop := ∀ m, m ≠ n → Env.get? env' m = Env.get? env m

theorem copy_loop {β : Type} (X : Ctx A) (u g : Name) (hu : u ≠ "name") (hg : g ≠ "name") (src dst : Nat) (ns : List Name) :
    ∀ (env : Env) (kf : Flow → St A → Res β × St A) (h : Exn → St A → Res β × St A) (s : St A) (R : Res β × St A),
    Env.get? env u = some (.dict src) → Env.get? env g = some (.dict dst) →
    (∀ e a b, kf (.exc e a) = kf (.exc e b)) →
    (∀ env', Agree env' env "name" → fork (copyNames src dst ns) (fun _ => kf (.next env')) (fun e => kf (.exc e [])) s = R) →
    fork (forLoop (assign (declLang X) (.loc "name")) (fun env => execs (declLang X)
      [.assign (.sub (.loc g) (.loc "name")) (.sub (.loc u) (.loc "name"))] none env) (ns.map nameV) env) kf h s = R := by
  induction ns with
  | nil =>
    intro env kf h s R h1 h2 hk hR
    rw [List.map_nil, fl_nil]
    exact hR env (fun _ _ => rfl)
  | cons n r ih =>
    intro env kf h s R h1 h2 hk hR
    have hu' : ("name" == u) = false := beq_eq_false_iff_ne.2 (Ne.symm hu)
    have hg' : ("name" == g) = false := beq_eq_false_iff_ne.2 (Ne.symm hg)
    rw [List.map_cons, fl_cons]
    unfold copyNames at hR
    cases hd : (s.dicts src).get? n with
    | none =>
      rw [← hR env (fun _ _ => rfl)]
      dsteps [nameV, h1, hu', hd]
      rw [hk]
    | some p =>
      dsteps [nameV, h1, h2, hu', hg', hd]
      refine ih _ _ _ _ _ ?_ ?_ hk ?_
      · rw [get_cons, hu']; exact h1
      · rw [get_cons, hg']; exact h2
      · intro env' ha
        have ha' : Agree env' env "name" := by
          intro m hm
          rw [ha m hm, get_cons]
          rw [beq_eq_false_iff_ne.2 (Ne.symm hm)]; rfl
        rw [← hR env' ha']
        dsteps [hd, dictSet]

/-- protectclass.py:85-91. -/
def likeTail : List Stmt := [.assign (.loc "get_protections") (.attr (.loc "checker") "get_permissions"),
    .for (.loc "name") (.loc "unto_get_protections")
     [.assign (.sub (.loc "get_protections") (.loc "name")) (.sub (.loc "unto_get_protections") (.loc "name"))],
    .assign (.loc "set_protections") (.attr (.loc "checker") "set_permissions"),
    .for (.loc "name") (.loc "unto_set_protections")
     [.assign (.sub (.loc "set_protections") (.loc "name")) (.sub (.loc "unto_set_protections") (.loc "name"))]]

theorem like_tail (X : Ctx A) (c : Val) (g st ug us : Nat) (hc : checkerDicts c = some (g, st)) (env : Env)
    (h1 : Env.get? env "checker" = some (.v c)) (h2 : Env.get? env "unto_get_protections" = some (.dict ug))
    (h3 : Env.get? env "unto_set_protections" = some (.dict us)) (s : St A) :
    fork (execs (declLang X) likeTail none env) (leave okK errK) errK s =
      fork (copyDict ug g) (fun _ => fork (copyDict us st) (fun _ => okK (.v .none)) errK) errK s := by
  unfold likeTail copyDict
  dsteps [h1, h2, readDict_eq hc]
  refine copy_loop X "unto_get_protections" "get_protections" (by decide) (by decide) ug g _ _ _ _ _ _ ?_ ?_ ?_ ?_
  · dsteps; exact h2
  · dsteps
  · intro e a b; funext s; dsteps
  · intro env1 ha
    refine fork_ext (fun _ s1 _ => ?_) (fun e s1 _ => ?_)
    · have g1 : Env.get? env1 "checker" = some (.v c) := by
        rw [ha _ (by decide)]; dsteps; exact h1
      have g3 : Env.get? env1 "unto_set_protections" = some (.dict us) := by
        rw [ha _ (by decide)]; dsteps; exact h3
      dsteps [g1, g3, writeDict_eq hc]
      refine copy_loop X "unto_set_protections" "set_protections" (by decide) (by decide) us st _ _ _ _ _ _ ?_ ?_ ?_ ?_
      · dsteps; exact g3
      · dsteps
      · intro e a b; funext s; dsteps
      · intro env2 _
        refine fork_ext (fun _ s1 _ => ?_) (fun e s1 _ => ?_) <;> dsteps
    · dsteps

theorem dicts_checker (i g st : Nat) : checkerDicts (.checker i g st) = some (g, st) := (rfl)

theorem like_body : Protectclass.protectLikeUnto.body = Protectclass.protectLikeUnto.body.take 6 ++ likeTail := rfl

/-- protectclass.py:76-91: the source of `protectLikeUnto`, with both loops, is the model's. -/
theorem C79_protectLikeUnto (X : Ctx A) (t like : Val) (k : Key) (hk : definable t = some k) :
    run (declLang X) Protectclass.protectLikeUnto [.v t, .v like] = unit (protectLikeUnto t like) := by
  apply ext_fork
  intro s
  unfold protectLikeUnto
  rw [run_eq, like_body]
  cases hl : definable like with
  | none => dsteps [Protectclass.protectLikeUnto, ↓es_append, List.take, lookUp, hl]
  | some kl =>
    by_cases hu : getCheckerFor s kl = .none
    · dsteps [Protectclass.protectLikeUnto, ↓es_append, List.take, lookUp, hl, hu, likeFrom]
    · cases hd : checkerDicts (getCheckerFor s kl) with
      | none => dsteps [Protectclass.protectLikeUnto, ↓es_append, List.take, lookUp, hl, hu, hd, likeFrom, readDict]
      | some d =>
        obtain ⟨ug, us⟩ := d
        unfold likeFrom likeCopy getOrCreate
        by_cases hc : getCheckerFor s k = .none
        · dsteps [Protectclass.protectLikeUnto, ↓es_append, List.take, lookUp, hl, hu, hd, hk, hc, readDict_eq hd, writeDict_eq hd, dicts_checker]
          refine fork_ext (fun _ s1 _ => ?_) (fun e s1 _ => ?_)
          · dsteps [dicts_checker]
            refine like_tail X (.checker (s.nextId + 1 + 1) s.nextId (s.nextId + 1)) _ _ ug us rfl _ ?_ ?_ ?_ s1 <;> dsteps
          · dsteps
        · cases hd2 : checkerDicts (getCheckerFor s k) with
          | none =>
            dsteps [Protectclass.protectLikeUnto, ↓es_append, List.take, lookUp, hl, hu, hd, hk, hc, readDict_eq hd, writeDict_eq hd, hd2, readDict]
            dsteps [likeTail, hd2, readDict]
          | some d =>
            obtain ⟨g, st⟩ := d
            dsteps [Protectclass.protectLikeUnto, ↓es_append, List.take, lookUp, hl, hu, hd, hk, hc, readDict_eq hd, writeDict_eq hd, hd2, readDict]
            refine like_tail X _ _ _ ug us hd2 _ ?_ ?_ ?_ s <;> dsteps

/-! ## The registry -/

theorem definable_cases {t : Val} {k : Key} (h : definable t = some k) :
    (∃ n, t = .type n ∧ k = .ty n) ∨ (∃ n, t = .module n ∧ k = .mod n) := by
  cases t <;> simp [definable] at h <;> subst h <;> simp

/-- checker.py: `BasicTypes[t] = v` writes to both tables. -/
theorem C79_basicSet (X : Ctx A) (t v : Val) (k : Key) (hk : definable t = some k) :
    run (declLang X) Checker._BasicTypes.__setitem__ [.sym "BasicTypes", .v t, .v v] = unit (basicSet k v) := by
  apply ext_fork
  intro s
  unfold basicSet
  rcases definable_cases hk with ⟨n, rfl, rfl⟩ | ⟨n, rfl, rfl⟩ <;> dsteps [Checker._BasicTypes.__setitem__]

/-- checker.py: `del BasicTypes[t]` deletes from both tables. -/
theorem C79_basicDel (X : Ctx A) (t : Val) (k : Key) (hk : definable t = some k) :
    run (declLang X) Checker._BasicTypes.__delitem__ [.sym "BasicTypes", .v t] = unit (basicDel k) := by
  apply ext_fork
  intro s
  unfold basicDel
  rcases definable_cases hk with ⟨n, rfl, rfl⟩ | ⟨n, rfl, rfl⟩ <;> dsteps [Checker._BasicTypes.__delitem__]

/-- checker.py: `BasicTypes.update(d)` updates both tables. -/
theorem C79_basicUpdate (X : Ctx A) (d : PyDict Key Val) :
    run (declLang X) Checker._BasicTypes.update [.sym "BasicTypes", .keydict d] = unit (basicUpdate d) := by
  apply ext_fork
  intro s
  unfold basicUpdate
  dsteps [Checker._BasicTypes.update]

/-- checker.py: `BasicTypes.clear()` raises and changes nothing. -/
theorem C79_basicClear (X : Ctx A) :
    run (declLang X) Checker._BasicTypes.clear [.sym "BasicTypes"] = unit basicClear := by
  apply ext_fork
  intro s
  unfold basicClear
  dsteps [Checker._BasicTypes.clear]

/-- checker.py: `_clear()`, what the cleanup of tests does to the tables. -/
theorem C79_clear (X : Ctx A) : run (declLang X) Checker._clear [] = unit clearRegistry := by
  apply ext_fork
  intro s
  unfold clearRegistry
  dsteps [Checker._clear]

/-! ## The constructors -/

/-- The state with another content of a dictionary. -/
def withDict (s : St A) (d : Nat) (D : PyDict Name Val) : St A :=
  { s with dicts := fun j => if j = d then D else s.dicts j }

theorem withDict_twice (s : St A) (d : Nat) (D E : PyDict Name Val) : withDict (withDict s d D) d E = withDict s d E := by
  unfold withDict
  congr 1
  funext j
  dsimp only
  split <;> rfl

theorem withDict_self (s : St A) (d : Nat) (D : PyDict Name Val) : (withDict s d D).dicts d = D := by
  unfold withDict; simp

theorem withDict_same (s : St A) (d : Nat) : withDict s d (s.dicts d) = s := by
  unfold withDict
  cases s
  congr 1
  funext j
  dsimp only
  split
  · rename_i hj; rw [hj]
  · rfl

/-- checker.py:377-380, 419-421 and 424-426. -/
def addBody : List Stmt :=
  [.if (.cmp .isNot (.call (.attr (.loc "data") "get") [.loc "name", .loc "permission_id"]) (.loc "permission_id"))
     [.raise (.call (.glo "DuplicationError") [.loc "name"])]
     [],
   .assign (.sub (.loc "data") (.loc "name")) (.loc "permission_id")]

theorem add_body {β : Type} (X : Ctx A) (d : Nat) (n : Name) (p : Val) (env : Env) (kf : Flow → St A → Res β × St A)
    (h : Exn → St A → Res β × St A) (s : St A) (h1 : Env.get? env "data" = some (.dict d))
    (h2 : Env.get? env "name" = some (.v (.str 0 n))) (h3 : Env.get? env "permission_id" = some (.v p)) :
    fork (execs (declLang X) addBody none env) kf h s =
      match addName (s.dicts d) n p with
      | .ok D => kf (.next env) (withDict s d D)
      | .error e => kf (.exc e env) s := by
  unfold addName addBody
  by_cases hn : ((s.dicts d).get? n).getD p = p
  · dsteps [h1, h2, h3, hn]; rfl
  · dsteps [h1, h2, h3, hn]

theorem names_loop {β : Type} (X : Ctx A) (d : Nat) (p : Val) (P : Res β × St A → Prop) (ns : List Name) :
    ∀ (env : Env) (kf : Flow → St A → Res β × St A) (h : Exn → St A → Res β × St A) (s : St A),
    Env.get? env "data" = some (.dict d) → Env.get? env "permission_id" = some (.v p) →
    (∀ env' D, Agree env' env "name" → addNames (s.dicts d) (ns.map fun n => (n, p)) = .ok D → P (kf (.next env') (withDict s d D))) →
    (∀ env' e D, addNames (s.dicts d) (ns.map fun n => (n, p)) = .error e → P (kf (.exc e env') (withDict s d D))) →
    P (fork (forLoop (assign (declLang X) (.loc "name")) (fun env => execs (declLang X) addBody none env) (ns.map nameV) env) kf h s) := by
  induction ns with
  | nil =>
    intro env kf h s h1 h2 hok herr
    rw [List.map_nil, fl_nil]
    have := hok env _ (fun _ _ => rfl) rfl
    rwa [withDict_same] at this
  | cons n r ih =>
    intro env kf h s h1 h2 hok herr
    have a1 : Env.get? (("name", nameV n) :: env) "data" = some (.dict d) := by rw [get_cons]; exact h1
    have a2 : Env.get? (("name", nameV n) :: env) "permission_id" = some (.v p) := by rw [get_cons]; exact h2
    rw [List.map_cons, fl_cons, assign_loc, fork_pure, Env.put, add_body X d n p _ _ _ _ a1 rfl a2]
    rw [List.map_cons, addNames] at hok herr
    cases ha : addName (s.dicts d) n p with
    | error e =>
      rw [ha] at hok herr
      dsimp only
      rw [im_exc]
      have := herr (("name", nameV n) :: env) e (s.dicts d) rfl
      rwa [withDict_same] at this
    | ok D =>
      rw [ha] at hok herr
      dsimp only
      rw [im_next]
      refine ih _ _ _ _ a1 a2 ?_ ?_
      · intro env' D' hag hD
        rw [withDict_self] at hD
        rw [withDict_twice]
        refine hok env' D' ?_ hD
        intro m hm
        rw [hag m hm, get_cons, beq_eq_false_iff_ne.2 (Ne.symm hm)]; rfl
      · intro env' e D' hD
        rw [withDict_self] at hD
        rw [withDict_twice]
        exact herr env' e D' hD

/-- The heap after `{}`. -/
def afterDict (s : St A) : St A := withDict { s with nextId := s.nextId + 1 } s.nextId []

theorem newDict_eq {β : Type} (k : PV → St A → Res β × St A) (h : Exn → St A → Res β × St A) (s : St A) :
    fork (lnewDict []) k h s = k (.dict s.nextId) (afterDict s) := (rfl)

/-- `Checker(data)` at the end of a constructor. -/
theorem made (d : PyDict Name Val) (s : St A) :
    fork (newDict []) (fun st => fork (newChecker s.nextId st) (fun c => okK (.v c)) errK) errK (withDict (afterDict s) s.nextId d) =
      val (checkerOf (.ok d)) s := by
  unfold afterDict
  rw [withDict_twice]
  refine Eq.trans ?_ (asFork _ s).symm
  unfold checkerOf
  pysteps [↓fork_newDict, ↓fork_newChecker]
  rfl

/-- `**kw` with values of the model. -/
def kwArgs (kw : PyDict Name Val) : List (Name × PV) := kw.map fun q => (q.1, .v q.2)

theorem kwVals_args (kw : PyDict Name Val) : kwVals (kwArgs kw) = some kw := by
  unfold kwArgs
  induction kw with
  | nil => rfl
  | cons q r ih => rw [List.map_cons, kwVals, ih]; rfl

theorem takeKw_args (n : Name) (kw : PyDict Name Val) : takeKw n (kwArgs kw) = (kw.get? n).map PV.v := by
  unfold kwArgs
  induction kw with
  | nil => rfl
  | cons q r ih =>
    obtain ⟨m, x⟩ := q
    rw [List.map_cons, takeKw, PyDict.get?]
    by_cases hm : m = n
    · simp [hm]
    · simp [hm, ih]

/-- What a constructor does when the permissions do not contradict each other, and when they do: then
an unreferenced dictionary remains. -/
def Constructs (r : Except Exn (PyDict Name Val)) (s : St A) (x : Res PV × St A) : Prop :=
  match r with
  | .ok _ => x = val (checkerOf r) s
  | .error e => ∃ D, x = (.err e, withDict (afterDict s) s.nextId D)

theorem bp_kw {β : Type} (L : Lang A) (f : Fn) (ps : List (Name × Option Expr)) (n : Name) (d : Option Expr) (x : PV) (xs : List PV)
    (kws : List (Name × PV)) (hn : takeKw n kws = none)
    (outer : Env) (ke : Env → St A → Res β × St A) (h : Exn → St A → Res β × St A) (s : St A) :
    fork (bindParams L f ((n, d) :: ps) (x :: xs) kws outer) ke h s =
      fork (bindParams L f ps xs kws (outer.put n x)) ke h s := by
  rw [bindParams, hn]; rfl

theorem names_body : Checker.NamesChecker.body =
    [.assign (.loc "data") (.dict []), .expr (.call (.attr (.loc "data") "update") [.loc "__kw__"]),
     .for (.loc "name") (.loc "names") addBody, .ret (.call (.glo "Checker") [.loc "data"])] := rfl

/-- checker.py: `NamesChecker(names, permission, **kw)`. -/
theorem C79_NamesChecker (X : Ctx A) (ns : List Name) (p : Val) (kw : PyDict Name Val) (s : St A)
    (h1 : kw.get? "names" = none) (h2 : kw.get? "permission_id" = none) :
    Constructs (namesData ns p kw) s
      (runIn (declLang X) Checker.NamesChecker [] [.list (ns.map nameV), .v p] (kwArgs kw) s) := by
  rw [show runIn (declLang X) Checker.NamesChecker [] [.list (ns.map nameV), .v p] (kwArgs kw) s =
    fork (runIn (declLang X) Checker.NamesChecker [] [.list (ns.map nameV), .v p] (kwArgs kw)) okK errK s from asFork _ s]
  rw [runIn_eq, names_body]
  rw [show Checker.NamesChecker.params = [("names", some (.tuple [])), ("permission_id", some (.glo "CheckerPublic"))] from rfl]
  rw [bp_kw _ _ _ _ _ _ _ _ (by rw [takeKw_args, h1]; rfl), bp_kw _ _ _ _ _ _ _ _ (by rw [takeKw_args, h2]; rfl), bindParams_nil]
  rw [show bindRest Checker.NamesChecker.star Checker.NamesChecker.dstar [] (kwArgs kw) = bindRest none (some "__kw__") [] (kwArgs kw) from rfl]
  dsteps [newDict_eq, kwVals_args]
  change Constructs _ _ (fork (forLoop _ _ _ _) _ _ (withDict (afterDict s) s.nextId (PyDict.update [] kw)))
  refine names_loop X s.nextId p _ ns _ _ _ _ (by dsteps) (by dsteps) ?_ ?_
  · intro env' D hag hD
    rw [withDict_self] at hD
    rw [withDict_twice]
    have hd : Env.get? env' "data" = some (.dict s.nextId) := by rw [hag _ (by decide)]; dsteps
    unfold Constructs namesData
    rw [hD]
    dsimp only
    rw [← made]
    pyforks [decl_glob, dglo_Checker, decl_call, dcall_Checker1, hd]
  · intro env' e D hD
    rw [withDict_self] at hD
    rw [withDict_twice]
    unfold Constructs namesData
    rw [hD]
    refine ⟨D, ?_⟩
    dsteps
    rfl

/-- A keyword argument that is also the name of a parameter. -/
theorem C79_NamesChecker_clash (X : Ctx A) (ns : List Name) (p : Val) (kw : PyDict Name Val) (s : St A)
    (h : kw.get? "names" ≠ none ∨ kw.get? "permission_id" ≠ none) :
    runIn (declLang X) Checker.NamesChecker [] [.list (ns.map nameV), .v p] (kwArgs kw) s = (.err .typeError, s) := by
  refine fork_run ?_
  rw [runIn_eq]
  rw [show Checker.NamesChecker.params = [("names", some (.tuple [])), ("permission_id", some (.glo "CheckerPublic"))] from rfl]
  cases h1 : kw.get? "names" with
  | some x =>
    rw [bindParams, takeKw_args, h1]
    pysteps [Option.map_some, Option.isSome_some]
    rfl
  | none =>
    rw [bp_kw _ _ _ _ _ _ _ _ (by rw [takeKw_args, h1]; rfl)]
    cases h2 : kw.get? "permission_id" with
    | some x =>
      rw [bindParams, takeKw_args, h2]
      pysteps [Option.map_some, Option.isSome_some]
      rfl
    | none => rw [h1, h2] at h; simp at h

/-- checker.py: `InterfaceChecker(interface, permission, **kw)`. -/
theorem C79_InterfaceChecker (X : Ctx A) (i : Iface) (p : Val) (kw : PyDict Name Val)
    (h1 : kw.get? "interface" = none) (h2 : kw.get? "permission_id" = none) :
    runIn (declLang X) Checker.InterfaceChecker [] [.iface i, .v p] (kwArgs kw) =
      val (interfaceChecker i.keys p kw) := by
  apply ext_fork
  intro s
  rw [runIn_eq]
  rw [show Checker.InterfaceChecker.params = [("interface", none), ("permission_id", some (.glo "CheckerPublic"))] from rfl]
  rw [bp_kw _ _ _ _ _ _ _ _ (by rw [takeKw_args, h1]; rfl), bp_kw _ _ _ _ _ _ _ _ (by rw [takeKw_args, h2]; rfl), bindParams_nil]
  rw [show bindRest Checker.InterfaceChecker.star Checker.InterfaceChecker.dstar [] (kwArgs kw) = bindRest none (some "__kw__") [] (kwArgs kw) from rfl]
  have hn : namesOf (i.keys.map nameV) = some i.keys := by
    induction i.keys with
    | nil => rfl
    | cons q r ih => rw [List.map_cons, nameV, namesOf, ih]; rfl
  unfold interfaceChecker
  dforks [Checker.InterfaceChecker, callNames, hn, kwVals_args, List.append_nil]

/-! `MultiChecker` -/

/-- The arguments of `MultiChecker`: names or an interface with a permission, or a dictionary. -/
inductive SpecArg : MSpec → PV → Prop where
  | names (ns : List Name) (p : Val) : SpecArg (.names ns p) (.tuple [.list (ns.map nameV), .v p])
  | iface (i : Iface) (p : Val) : SpecArg (.names i.keys p) (.tuple [.iface i, .v p])
  | dict (d : PyDict Name Val) : SpecArg (.dict d) (.kwds (kwArgs d))

/-- Several specifications. -/
inductive SpecArgs : List MSpec → List PV → Prop where
  | nil : SpecArgs [] []
  | cons {sp x l r} : SpecArg sp x → SpecArgs l r → SpecArgs (sp :: l) (x :: r)

theorem items_loop {β : Type} (X : Ctx A) (d : Nat) (P : Res β × St A → Prop) (l : PyDict Name Val) :
    ∀ (env : Env) (kf : Flow → St A → Res β × St A) (h : Exn → St A → Res β × St A) (s : St A),
    Env.get? env "data" = some (.dict d) →
    (∀ env' D, Env.get? env' "data" = some (.dict d) → addNames (s.dicts d) l = .ok D → P (kf (.next env') (withDict s d D))) →
    (∀ env' e D, addNames (s.dicts d) l = .error e → P (kf (.exc e env') (withDict s d D))) →
    P (fork (forLoop (assign (declLang X) (.tuple [.loc "name", .loc "permission_id"])) (fun env => execs (declLang X) addBody none env) (itemsOf (kwArgs l)) env) kf h s) := by
  induction l with
  | nil =>
    intro env kf h s h1 hok herr
    rw [show itemsOf (kwArgs []) = [] from rfl, fl_nil]
    have := hok env _ h1 rfl
    rwa [withDict_same] at this
  | cons q r ih =>
    intro env kf h s h1 hok herr
    obtain ⟨n, p⟩ := q
    have a1 : Env.get? (("permission_id", .v p) :: ("name", nameV n) :: env) "data" = some (.dict d) := by
      rw [get_cons, get_cons]; exact h1
    rw [show itemsOf (kwArgs ((n, p) :: r)) = .tuple [nameV n, .v p] :: itemsOf (kwArgs r) from rfl, fl_cons, decl_assign_tuple]
    simp only [assignAll_cons, assignAll_nil, assign1_loc, fork_bind, fork_pure, Env.put]
    rw [add_body X d n p _ _ _ _ a1 rfl rfl]
    rw [addNames] at hok herr
    cases ha : addName (s.dicts d) n p with
    | error e =>
      rw [ha] at hok herr
      dsimp only
      rw [im_exc]
      have := herr (("permission_id", .v p) :: ("name", nameV n) :: env) e (s.dicts d) rfl
      rwa [withDict_same] at this
    | ok D =>
      rw [ha] at hok herr
      dsimp only
      rw [im_next]
      refine ih _ _ _ _ a1 ?_ ?_
      · intro env' D' hag hD
        rw [withDict_self] at hD
        rw [withDict_twice]
        exact hok env' D' hag hD
      · intro env' e D' hD
        rw [withDict_self] at hD
        rw [withDict_twice]
        exact herr env' e D' hD

/-- checker.py:413-426. -/
def multiBody : List Stmt :=
  [.if (.call (.glo "isinstance") [.loc "spec", .glo "tuple"])
    [.assign (.tuple [.loc "names", .loc "permission_id"]) (.loc "spec"),
     .if (.call (.attr (.glo "IInterface") "providedBy") [.loc "names"])
      [.assign (.loc "names") (.call (.attr (.loc "names") "names") [.kw "all" (.true)])]
      [],
     .for (.loc "name") (.loc "names") addBody]
    [.for (.tuple [.loc "name", .loc "permission_id"]) (.call (.attr (.loc "spec") "items") []) addBody]]

theorem multi_body : Checker.MultiChecker.body = [.assign (.loc "data") (.dict []),
    .for (.loc "spec") (.loc "specs") multiBody, .ret (.call (.glo "Checker") [.loc "data"])] := rfl

theorem spec_body {β : Type} (X : Ctx A) (d : Nat) (P : Res β × St A → Prop) (sp : MSpec) (x : PV) (hx : SpecArg sp x)
    (env : Env) (kf : Flow → St A → Res β × St A) (h : Exn → St A → Res β × St A) (s : St A)
    (h1 : Env.get? env "data" = some (.dict d))
    (hok : ∀ env' D, Env.get? env' "data" = some (.dict d) → addNames (s.dicts d) sp.pairs = .ok D → P (kf (.next env') (withDict s d D)))
    (herr : ∀ env' e D, addNames (s.dicts d) sp.pairs = .error e → P (kf (.exc e env') (withDict s d D))) :
    P (fork (execs (declLang X) multiBody none (("spec", x) :: env)) kf h s) := by
  cases hx with
  | names ns p =>
    dsteps [multiBody]
    refine names_loop X d p _ ns _ _ _ _ (by dsteps; exact h1) (by dsteps) ?_ ?_
    · intro env' D hag hD
      dsteps
      exact hok env' D (by rw [hag _ (by decide)]; dsteps; exact h1) hD
    · intro env' e D hD
      dsteps
      exact herr env' e D hD
  | iface i p =>
    dsteps [multiBody]
    refine names_loop X d p _ i.keys _ _ _ _ (by dsteps; exact h1) (by dsteps) ?_ ?_
    · intro env' D hag hD
      dsteps
      exact hok env' D (by rw [hag _ (by decide)]; dsteps; exact h1) hD
    · intro env' e D hD
      dsteps
      exact herr env' e D hD
  | dict l =>
    dsteps [multiBody]
    refine items_loop X d _ l _ _ _ _ (by dsteps; exact h1) ?_ ?_
    · intro env' D hag hD
      dsteps
      exact hok env' D hag hD
    · intro env' e D hD
      dsteps
      exact herr env' e D hD

theorem specs_loop {β : Type} (X : Ctx A) (d : Nat) (P : Res β × St A → Prop) {sps : List MSpec} {xs : List PV} (hx : SpecArgs sps xs) :
    ∀ (env : Env) (kf : Flow → St A → Res β × St A) (h : Exn → St A → Res β × St A) (s : St A),
    Env.get? env "data" = some (.dict d) →
    (∀ env' D, Env.get? env' "data" = some (.dict d) → multiLoop (s.dicts d) sps = .ok D → P (kf (.next env') (withDict s d D))) →
    (∀ env' e D, multiLoop (s.dicts d) sps = .error e → P (kf (.exc e env') (withDict s d D))) →
    P (fork (forLoop (assign (declLang X) (.loc "spec")) (fun env => execs (declLang X) multiBody none env) xs env) kf h s) := by
  induction hx with
  | nil =>
    intro env kf h s h1 hok herr
    rw [fl_nil]
    have := hok env _ h1 rfl
    rwa [withDict_same] at this
  | cons hsp hr ih =>
    intro env kf h s h1 hok herr
    rw [fl_cons, assign_loc, fork_pure, Env.put]
    rw [multiLoop] at hok herr
    refine spec_body X d _ _ _ hsp _ _ _ _ h1 ?_ ?_
    · intro env1 D he hD
      rw [hD] at hok herr
      dsimp only at hok herr
      rw [im_next]
      refine ih _ _ _ _ he ?_ ?_
      · intro env' D' hag hD
        rw [withDict_self] at hD
        rw [withDict_twice]
        exact hok env' D' hag hD
      · intro env' e D' hD
        rw [withDict_self] at hD
        rw [withDict_twice]
        exact herr env' e D' hD
    · intro env1 e D hD
      rw [hD] at herr
      rw [im_exc]
      exact herr env1 e D rfl

/-- checker.py: `MultiChecker(specs)`: the three kinds of specification, in any order and number. -/
theorem C79_MultiChecker (X : Ctx A) (sps : List MSpec) (xs : List PV) (hx : SpecArgs sps xs) (s : St A) :
    Constructs (multiData sps) s (run (declLang X) Checker.MultiChecker [.list xs] s) := by
  rw [show run (declLang X) Checker.MultiChecker [.list xs] s =
    fork (run (declLang X) Checker.MultiChecker [.list xs]) okK errK s from asFork _ s]
  rw [run_eq, multi_body]
  rw [show Checker.MultiChecker.params = [("specs", none)] from rfl]
  rw [fork_bp_nil, bindParams_nil]
  rw [show bindRest Checker.MultiChecker.star Checker.MultiChecker.dstar [] [] = bindRest none none [] [] from rfl]
  dsteps [newDict_eq]
  change Constructs _ _ (fork (forLoop _ _ _ _) _ _ (afterDict s))
  refine specs_loop X s.nextId _ hx _ _ _ _ (by dsteps) ?_ ?_
  · intro env' D hd hD
    rw [show (afterDict s).dicts s.nextId = [] by unfold afterDict; rw [withDict_self]] at hD
    unfold Constructs multiData
    rw [hD]
    dsimp only
    rw [← made]
    pyforks [decl_glob, dglo_Checker, decl_call, dcall_Checker1, hd]
  · intro env' e D hD
    rw [show (afterDict s).dicts s.nextId = [] by unfold afterDict; rw [withDict_self]] at hD
    unfold Constructs multiData
    rw [hD]
    refine ⟨D, ?_⟩
    dsteps
    rfl

end ZS.Props
