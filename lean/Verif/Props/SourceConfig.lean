import Verif.Props.SourceMeta
import Verif.Props.SourceSession

/-!
# C80: configuring from source
-/

namespace ZS.Props
open ZS ZS.PyC ZS.Src ZS.Spec
set_option maxHeartbeats 1000000

section
variable {β : Type} {kf : Flow → St Reading → Res β × St Reading} {h : Exn → St Reading → Res β × St Reading}

theorem interfaces_loop (N : Naming) (n : Nat) (d : Nat) (b : PV) (P : Res β × St Reading → Prop) (l : List Iface) : ∀ (seen acc : List Name) (e : Env) (s : St Reading),
    NamesEnv d acc b e → Holds (s.dicts d) seen →
    (∀ e' D, NamesEnv d (acc ++ unseenInterfaces seen l) b e' → P (kf (.next e') (withDict s d D))) →
    P (fork (forLoop (assign (metaLang N n) (.loc "interface")) (fun env => execs (metaLang N n)
      [.for (.loc "name") (.loc "interface") seenBody] none env) (l.map PV.iface) e) kf h s) := by
  induction l with
  | nil =>
    intro seen acc e s he hs hR
    have := hR e (s.dicts d) (by rw [unseenInterfaces, List.append_nil]; exact he)
    rw [withDict_same] at this
    rw [List.map_nil, fl_nil]
    exact this
  | cons x r ih =>
    intro seen acc e s he hs hR
    rw [List.map_cons, fl_cons]
    msteps
    refine seen_loop N n d b P x.keys seen acc _ _ ?_ hs ?_
    · constructor <;> msteps [he.1, he.2, he.3]
    · intro e' D he' hD
      msteps
      refine ih _ _ e' _ he' (by rw [withDict_self]; exact hD) ?_
      intro e'' D' he''
      rw [withDict_twice]
      refine hR e'' D' ?_
      rw [List.append_assoc] at he''
      exact he''

/-- `_names` (metaconfigure.py:200-210): the names of `directiveNames`; nothing changes but a new dictionary. -/
theorem m_names_of {k : PV → St Reading → Res β × St Reading} {s : St Reading} {a b : PV}
    (N : Naming) (n : Nat) (P : Res β × St Reading → Prop) (attributes : List Name) (interface : List Iface)
    (ha : miter a = pure (attributes.map nameV)) (hb : miter b = pure (interface.map PV.iface))
    (hR : ∀ D, P (k (.list ((directiveNames attributes interface).map nameV)) (withDict (afterDict s) s.nextId D))) :
    P (fork (run (metaLang N n) Metaconfigure._names [a, b]) k h s) := by
  rw [run_eq, show Metaconfigure._names.body = [_, _, .for (.loc "name") (.loc "attributes") seenBody,
    .for (.loc "interface") (.loc "interfaces") [.for (.loc "name") (.loc "interface") seenBody], _] from rfl]
  rw [show Metaconfigure._names.params = [_, _] from rfl]
  msteps [show Metaconfigure._names.star = none from rfl, show Metaconfigure._names.dstar = none from rfl, ↓fork_newDict, ha]
  change P (fork (forLoop _ _ _ _) _ _ (afterDict s))
  refine seen_loop N n s.nextId b P attributes [] [] _ _ ?_ ?_ ?_
  · constructor <;> msteps [List.map_nil]
  · intro x
    unfold afterDict
    rw [withDict_self]
    simp [PyDict.mem, PyDict.get?]
  · intro e D he hD
    msteps [he.interfaces, hb]
    refine interfaces_loop N n s.nextId b P interface _ _ e _ he (by rw [withDict_self]; exact hD) ?_
    intro e' D' he'
    rw [withDict_twice]
    msteps [he'.yielded]
    exact hR D'

/-- What a module directive leaves behind: its actions, and a dictionary nobody refers to. -/
def Left (s : St Reading) (l : List Raw) (r : Res PV × St Reading) : Prop :=
  ∃ D, r = (.ok (.v .none), emit (withDict (afterDict s) s.nextId D) l)

theorem mod_require (N : Naming) (n : Nat) (m : String) (hm : N.module = .module m) {a b : PV} (p : Val) (attributes : List Name)
    (interface : List Iface) (ha : miter a = pure (attributes.map nameV)) (hb : miter b = pure (interface.map PV.iface)) (s : St Reading) :
    Left s ((emitModSub (.mod m) (.require p attributes interface)).map (rawOf N))
      (run (metaLang N (n + 1)) Metaconfigure.require [.sym "_context", .v p, a, b] s) := by
  rw [show run (metaLang N (n + 1)) Metaconfigure.require [.sym "_context", .v p, a, b] s =
    fork (run (metaLang N (n + 1)) Metaconfigure.require [.sym "_context", .v p, a, b]) okK errK s from asFork _ s]
  msteps [Metaconfigure.require, ml_names]
  rw [← run_eq]
  refine m_names_of N n _ attributes interface ha hb fun D => ⟨D, ?_⟩
  msteps
  refine emit_loop _ _ _ nameV (fun x => [rawOf N (.name (.mod m) x p)])
    (fun e => Env.get? e "context" = some (.sym "_context") ∧ Env.get? e "permission" = some (.v p)) (fun _ => True) (fun _ => True)
    (fun s l hs => trivial) ?_ _ _ _ _ _ _ (fun _ _ => trivial) ?_ trivial ?_
  · intro x env kf h he s R _ hI hs hR
    rw [← hR (("name", nameV x) :: env) (by msteps [hI.1, hI.2]; exact ⟨trivial, trivial⟩)]
    msteps [hI.1, hI.2, hm, rawOf, raw, nameV]
  · msteps; exact ⟨trivial, trivial⟩
  · intro env' _
    rw [flat_single]
    unfold emitModSub
    msteps [List.map_map, Function.comp_def, okK]

theorem mod_allow (N : Naming) (n : Nat) (m : String) (hm : N.module = .module m) {a b : PV} (attributes : List Name)
    (interface : List Iface) (ha : miter a = pure (attributes.map nameV)) (hb : miter b = pure (interface.map PV.iface)) (s : St Reading) :
    Left s ((emitModSub (.mod m) (.allow attributes interface)).map (rawOf N))
      (run (metaLang N (n + 1)) Metaconfigure.allow [.sym "_context", a, b] s) := by
  rw [show run (metaLang N (n + 1)) Metaconfigure.allow [.sym "_context", a, b] s =
    fork (run (metaLang N (n + 1)) Metaconfigure.allow [.sym "_context", a, b]) okK errK s from asFork _ s]
  msteps [Metaconfigure.allow, ml_names]
  rw [← run_eq]
  refine m_names_of N n _ attributes interface ha hb fun D => ⟨D, ?_⟩
  msteps
  refine emit_loop _ _ _ nameV (fun x => [rawOf N (.name (.mod m) x publicPermission)])
    (fun e => Env.get? e "context" = some (.sym "_context")) (fun _ => True) (fun _ => True)
    (fun s l hs => trivial) ?_ _ _ _ _ _ _ (fun _ _ => trivial) ?_ trivial ?_
  · intro x env kf h he s R _ hI hs hR
    rw [← hR (("name", nameV x) :: env) (by msteps [hI])]
    msteps [hI, hm, rawOf, raw, nameV]
  · msteps
  · intro env' _
    rw [flat_single]
    unfold emitModSub
    msteps [List.map_map, Function.comp_def, okK]
end

/-! ## Configurations -/

/-- What zope.configuration calls for a directive: a method of `ClassDirective` for a class, or a function for a
module, with the arguments it has read. -/
inductive Invocation where
  | cls (t : String) (method : Name) (args : List PV)
  | mod (m : String) (fn : Name) (args : List PV)

/-- The call for a directive.  Lists may be lists, tuples or, in the class directives, left out. -/
inductive Writes : Directive → Invocation → Prop where
  | require {t r a b u c d} : IsPermission r.permission → RequireArgs r a b u c d →
      Writes (.cls t (.require r)) (.cls t "require" [.v r.permission, a, b, u, c, d])
  | allow {t attributes interface a b} : ListArg nameV attributes a → ListArg ifaceV interface b →
      Writes (.cls t (.allow attributes interface)) (.cls t "allow" [a, b])
  | implements {t l b} : miter b = pure (l.map PV.iface) → Writes (.cls t (.implements l)) (.cls t "implements" [b])
  | modAllow {m attributes interface a b} : miter a = pure (attributes.map nameV) → miter b = pure (interface.map PV.iface) →
      Writes (.mod m (.allow attributes interface)) (.mod m "allow" [a, b])
  | modRequire {m p attributes interface a b} : miter a = pure (attributes.map nameV) → miter b = pure (interface.map PV.iface) →
      Writes (.mod m (.require p attributes interface)) (.mod m "require" [.v p, a, b])

/-- The calls for the directives of a configuration. -/
inductive WritesAll : List Directive → List Invocation → Prop where
  | nil : WritesAll [] []
  | cons {d c l cs} : Writes d c → WritesAll l cs → WritesAll (d :: l) (c :: cs)

/-- The directives about modules. -/
def moduleFns : List (Name × Fn) := [("allow", Metaconfigure.allow), ("require", Metaconfigure.require)]

/-- Reading a directive: the source of metaconfigure.py is run.  For a class a handler is made first. -/
def sourceRead (N : Naming) : Invocation → M Reading PV
  | .cls t m args => do
    let _ ← run (metaLang N 4) Metaconfigure.ClassDirective.__init__ [.sym "self", .sym "_context", .v (.type t)]
    runFn (metaLang N 4) (fnOf Metaconfigure.ClassDirective.methods m) (.sym "self" :: .sym "_context" :: args) stuck
  | .mod m f args =>
    runFn (metaLang { N with module := .module m } 4) (fnOf moduleFns f) (.sym "_context" :: args) stuck

/-- How reading ends. -/
def endOf : Option Exn → Res PV
  | none => .ok (.v .none)
  | some e => .err e

theorem rawOf_module (N : Naming) (v : Val) (a : Action) : rawOf { N with module := v } a = rawOf N a := by
  cases a with
  | name k n p => cases k <;> rfl
  | _ => rfl

theorem ended_ok (N : Naming) (s : St Reading) (r : List Action × Option Exn) :
    ended okK errK N s r = (endOf r.2, emit s (r.1.map (rawOf N))) := by
  obtain ⟨l, e⟩ := r
  cases e <;> rfl

/-- What reading a directive leaves as it was: the redefinitions of permissions and the dictionaries that were there. -/
structure Keeps (s s' : St Reading) : Prop where
  maps : s'.app.maps = s.app.maps
  older : ∀ d, d < s.nextId → s'.dicts d = s.dicts d
  next : s.nextId ≤ s'.nextId

theorem Left.keeps {s s' : St Reading} {l : List Raw} {D : PyDict Name Val} (h : s' = emit (withDict (afterDict s) s.nextId D) l) : Keeps s s' := by
  subst h
  exact ⟨rfl, fun d hd => (if_neg (Nat.ne_of_lt hd)).trans (if_neg (Nat.ne_of_lt hd)), Nat.le_succ _⟩

theorem directive_keeps (N : Naming) (d : Directive) (c : Invocation) (hw : Writes d c) (s : St Reading) :
    ∃ s', sourceRead N c s = (endOf (emitDirective d).2, s')
      ∧ s'.app.actions = s.app.actions ++ (emitDirective d).1.map (rawOf N) ∧ Keeps s s' := by
  have cls : ∀ t m args f r, fnOf Metaconfigure.ClassDirective.methods m = some f →
      (∀ s, Handles t s → fork (run (metaLang N 4) f (.sym "self" :: .sym "_context" :: args)) okK errK s = ended okK errK N s r) →
      ∃ s', sourceRead N (.cls t m args) s = (endOf r.2, s') ∧ s'.app.actions = s.app.actions ++ r.1.map (rawOf N) ∧ Keeps s s' := by
    intro t m args f r hf hrun
    have hs : sourceRead N (.cls t m args) s = ended okK errK N { s with app := { s.app with attrs :=
          ("_ClassDirective__context", .sym "_context") :: ("_ClassDirective__class", .v (.type t))
            :: ("_ClassDirective__id", .v (.str 0 (N.clsModule t ++ "." ++ N.clsName t))) :: s.app.attrs } } r := by
      rw [asFork (sourceRead N (.cls t m args)) s]
      unfold sourceRead
      rw [fork_bind, m_init N 3, hf]
      exact hrun _ ⟨rfl, rfl⟩
    rw [hs, ended_ok]
    exact ⟨_, rfl, rfl, rfl, fun _ _ => rfl, Nat.le_refl _⟩
  cases hw with
  | require hp hx => exact cls _ _ _ _ _ rfl fun s hs => m_require N 2 hs _ hp hx
  | allow ha hb => exact cls _ _ _ _ _ rfl fun s hs => m_allow N 1 hs _ _ ha hb
  | implements hb => exact cls _ _ _ _ _ rfl fun s hs => m_implements N 4 hs _ hb
  | @modAllow m _ _ _ _ ha hb =>
    obtain ⟨D, hD⟩ := mod_allow { N with module := .module m } 3 m rfl _ _ ha hb s
    refine ⟨_, hD, ?_, Left.keeps rfl⟩
    change s.app.actions ++ _ = _
    congr 2
  | @modRequire m p _ _ _ _ ha hb =>
    obtain ⟨D, hD⟩ := mod_require { N with module := .module m } 3 m rfl p _ _ ha hb s
    refine ⟨_, hD, ?_, Left.keeps rfl⟩
    change s.app.actions ++ _ = _
    congr 2

/-- **C80** The source of a directive emits the actions the model emits, with their discriminators, functions
and arguments, and raises what the model raises. -/
theorem C80_directive (N : Naming) (d : Directive) (c : Invocation) (hw : Writes d c) (s : St Reading) :
    ∃ s', sourceRead N c s = (endOf (emitDirective d).2, s')
      ∧ s'.app.actions = s.app.actions ++ (emitDirective d).1.map (rawOf N) := by
  obtain ⟨s', h1, h2, _⟩ := directive_keeps N d c hw s
  exact ⟨s', h1, h2⟩

/-- Reading all the directives of a configuration. -/
def sourceReads (N : Naming) : List Invocation → M Reading PV
  | [] => pure (.v .none)
  | c :: r => do
    let _ ← sourceRead N c
    sourceReads N r

/-- **C80** The same for a whole configuration: the first exception ends it. -/
theorem C80_reading (N : Naming) (l : List Directive) (cs : List Invocation) (hw : WritesAll l cs) (s : St Reading) :
    ∃ s', sourceReads N cs s = (endOf (emitAll l).2, s')
      ∧ s'.app.actions = s.app.actions ++ (emitAll l).1.map (rawOf N) := by
  induction hw generalizing s with
  | nil => exact ⟨s, rfl, (List.append_nil _).symm⟩
  | @cons d c l cs hd _ ih =>
    obtain ⟨s1, h1, h2⟩ := C80_directive N d c hd s
    have hb : sourceReads N (c :: cs) s = M.bind (sourceRead N c) (fun _ => sourceReads N cs) s := rfl
    rw [hb]
    unfold M.bind emitAll
    rw [h1]
    cases he : (emitDirective d).2 with
    | some e => exact ⟨s1, by simp only [endOf, he], by simpa only [he] using h2⟩
    | none =>
      obtain ⟨s2, h3, h4⟩ := ih s1
      refine ⟨s2, ?_, ?_⟩
      · simp only [he]; exact h3
      · simp only [he]
        rw [h4, h2, List.map_append, List.append_assoc]

variable {A : Type}

/-- Carrying out an action: the function is run from its source on the arguments.  `classImplements` and `provideInterface` are not
of this package and do not touch the registry of checkers. -/
def sourceAct (X : Ctx A) (r : Raw) : M A PV :=
  match takeKw "callable" r, takeKw "args" r with
  | some (.sym f), some (.tuple l) =>
    if f = "protectName" then run (declLang X) Protectclass.protectName l
    else if f = "protectSetAttribute" then run (declLang X) Protectclass.protectSetAttribute l
    else if f = "protectLikeUnto" then run (declLang X) Protectclass.protectLikeUnto l
    else if f = "protectModule" then run (declLang X) Metaconfigure.protectModule l
    else if f = "classImplements" ∨ f = "provideInterface" then pure (.v .none)
    else stuck
  | _, _ => stuck

/-- **C80** Carrying out what the source has emitted for an action is the action of the model. -/
theorem C80_action (X : Ctx A) (N : Naming) (a : Action) : sourceAct X (rawOf N a) = unit (runAction a) := by
  cases a with
  | mimic k u =>
    have hk : definable k.val = some k := by cases k <;> rfl
    exact C79_protectLikeUnto X k.val u.val k hk
  | name k n p =>
    cases k with
    | ty t => exact C79_protectName X (.type t) (.ty t) rfl 0 n p
    | mod m => exact C79_protectModule X (.module m) (.mod m) rfl 0 n p
  | setAttr k n p =>
    have hk : definable k.val = some k := by cases k <;> rfl
    exact C79_protectSetAttribute X k.val k hk 0 n p
  | classImplements k i => rfl
  | provideInterface i => rfl

/-- Carrying out actions. -/
def sourceActs (X : Ctx A) : List Raw → M A PV
  | [] => pure (.v .none)
  | r :: l => do
    let _ ← sourceAct X r
    sourceActs X l

/-- A configuration, from the source: its directives are read; then, if nothing was raised, the actions are
carried out in order. -/
def sourceConfigure (X : Ctx A) (N : Naming) (s0 : St Reading) (cs : List Invocation) : M A PV :=
  match sourceReads N cs s0 with
  | (.ok _, s) => sourceActs X s.app.actions
  | (.err e, _) => M.throw e
  | (.diverge, _) => M.diverge

theorem source_acts (X : Ctx A) (N : Naming) (l : List Action) : sourceActs X (l.map (rawOf N)) = unit (runActions l) := by
  induction l with
  | nil => rfl
  | cons a r ih =>
    apply ext_fork
    intro s
    rw [List.map_cons]
    unfold sourceActs runActions
    rw [C80_action, ih]
    simp only [unit, fork_bind]
    refine fork_ext (fun _ _ _ => ?_) (fun _ _ _ => rfl)
    rw [fork_pure, fork_bind]

/-- **C80** Reading the directives by the source of metaconfigure.py and carrying out the actions by the source of
protectclass.py is the configuring of the model: same effect on the registry, same exception. -/
theorem C80_configure (X : Ctx A) (N : Naming) (l : List Directive) (cs : List Invocation) (hw : WritesAll l cs) (s0 : St Reading)
    (h0 : s0.app.actions = []) : sourceConfigure X N s0 cs = unit (configure l) := by
  obtain ⟨s, h1, h2⟩ := C80_reading N l cs hw s0
  unfold sourceConfigure configure
  rw [h1]
  cases he : (emitAll l).2 with
  | some e => rfl
  | none =>
    simp only [endOf]
    rw [h2, h0, List.nil_append, source_acts]

/-- **C80** As `C78_configured`, configured by the source as well: the directives are read by the text of metaconfigure.py, the
actions carried out by the text of protectclass.py, the operations by the text of proxy.py and checker.py. -/
theorem C80_configured (E : Ext) (a : A) (l : List Directive) (cs : List Invocation) (hw : WritesAll l cs) (hr : Ready l (initial E a))
    (hl : ∀ d ∈ l, ∀ e, ¬ Raises d e) (N : Naming) (r0 : St Reading) (h0 : r0.app.actions = []) (X : Ctx A) (hi : X.impl = .py) :
    ∃ s0, sourceConfigure X N r0 cs (initial E a) = (.ok (.v .none), s0) ∧ ∃ σ, Effects l (storeOf (initial E a)) σ ∧
      (∀ τ, Effects l (storeOf (initial E a)) τ → τ = σ) ∧
      (ReliesPy X.W s0 → ∀ start held s held', protection start = protection s0 → Untouched start →
        (∀ v ∈ held, Issued X.W s0.reg v) → SourceSession X (start, held) (s, held') →
        ∀ p ∈ held', IsProxy p → ∀ op, (∀ v ∈ opArgs op, v ∈ held') →
          NewEvents s (sourceOp X p op s).2 (Only (PermittedPy X σ s p op))) := by
  obtain ⟨s0, h1, σ, h2, h3, h4⟩ := C78_configured E a l hr hl
  refine ⟨s0, ?_, σ, h2, h3, h4 X hi⟩
  rw [C80_configure X N l cs hw r0 h0]
  change M.bind (configure l) (fun _ => pure (PV.v .none)) (initial E a) = _
  unfold M.bind
  rw [h1]
  rfl

/-- **C80** As `C78_carried_out`: what the configuration and the interaction permit, the source carries out. -/
theorem C80_carried_out (E : Ext) (a : A) (l : List Directive) (cs : List Invocation) (hw : WritesAll l cs) (hr : Ready l (initial E a))
    (hl : ∀ d ∈ l, ∀ e, ¬ Raises d e) (N : Naming) (r0 : St Reading) (h0 : r0.app.actions = []) (X : Ctx A) (hi : X.impl = .py) :
    ∃ s0, sourceConfigure X N r0 cs (initial E a) = (.ok (.v .none), s0) ∧ ∃ σ, Effects l (storeOf (initial E a)) σ ∧
      (∀ τ, Effects l (storeOf (initial E a)) τ → τ = σ) ∧
      (ReliesPy X.W s0 → ∀ start held s held', protection start = protection s0 → Untouched start →
        (∀ v ∈ held, Issued X.W s0.reg v) → SourceSession X (start, held) (s, held') →
        ∀ p ∈ held', IsProxy p → ∀ op, (∀ v ∈ opArgs op, v ∈ held') →
          ∀ q, need .py p op = some q → Direct op →
            ∀ i w c, q.actor = .proxy i w c → PermitsPy X σ s w (isWrite q.kind) q.name →
              ∃ es, (sourceOp X p op s).2.trace = s.trace ++ es ∧ .performed (q.carry w) ∈ es) := by
  obtain ⟨s0, h1, σ, h2, h3, h4⟩ := C78_carried_out E a l hr hl
  refine ⟨s0, ?_, σ, h2, h3, h4 X hi⟩
  rw [C80_configure X N l cs hw r0 h0]
  change M.bind (configure l) (fun _ => pure (PV.v .none)) (initial E a) = _
  unfold M.bind
  rw [h1]
  rfl

/-! ## Discriminators -/

/-- Whether an action can be in conflict with another: not when its discriminator is `None` or contains a
new object. -/
def comparable : PV → Bool
  | .tuple l => !l.any fun x => match x with
    | .sym c => c == "object()"
    | _ => false
  | _ => false

/-- **C80** The discriminators in the source are those of the model: an action can be in conflict just when the model says so, and
two discriminators are equal just when those of the model are. -/
theorem C80_discriminators (N : Naming) (a b : Action) :
    ∃ x y, takeKw "discriminator" (rawOf N a) = some x ∧ takeKw "discriminator" (rawOf N b) = some y ∧
      (comparable x = true ↔ (discOf a).isSome) ∧
      (comparable x = true → comparable y = true → (x = y ↔ discOf a = discOf b)) := by
  have hv : ∀ k k' : Key, k.val = k'.val ↔ k = k' := by intro k k'; cases k <;> cases k' <;> simp [Key.val]
  cases a with
  | name k n p => cases k <;> cases b with
    | name k' n' p' => cases k' <;> exact ⟨_, _, rfl, rfl, by simp [comparable, discOf, nameV], by simp [comparable, discOf, nameV]⟩
    | _ => exact ⟨_, _, rfl, rfl, by simp [comparable, discOf, nameV], by simp [comparable, discOf, nameV]⟩
  | setAttr k n p => cases b with
    | name k' n' p' => cases k' <;> exact ⟨_, _, rfl, rfl, by simp [comparable, discOf, nameV], by simp [comparable, discOf, nameV]⟩
    | _ => exact ⟨_, _, rfl, rfl, by simp [comparable, discOf, nameV], by simp [comparable, discOf, nameV, hv]⟩
  | _ => cases b with
    | name k' n' p' => cases k' <;> exact ⟨_, _, rfl, rfl, by simp [comparable, discOf, nameV], by simp [comparable, discOf, nameV]⟩
    | _ => exact ⟨_, _, rfl, rfl, by simp [comparable, discOf, nameV], by simp [comparable, discOf, nameV]⟩

end ZS.Props
