import Verif.Props.SourceZcml
import Verif.Props.SourceResolve
import Verif.Props.SourceManagement

/-!
# C81: whole configurations from the source

A configuration as `Model/File.lean` has it — nested contexts, included files, permissions written as text, redefinitions,
conflicts, actions put off to the end — with everything that is in this package run from its source: the fields
and directives of zcml.py, the directives of metaconfigure.py, and what the actions call in permission.py, protectclass.py,
metaconfigure.py and management.py.  What is of zope.configuration is as in `Model/File.lean`.
-/

namespace ZS.Props
open ZS ZS.PyC ZS.Src
set_option maxHeartbeats 1000000

/-! ## Reading -/

/-- A directive as written: a permission and its title and description, a redefinition, a security policy, or a call of metaconfigure.py, which may
have a permission field, of which it gets the value. -/
inductive Element where
  | permission (raw title : String) (description : Option String)
  | redefine (from_ to_ : String)
  | policy (p : Policy)
  | plain (c : Invocation)
  | guarded (raw : String) (c : Val → Invocation)

/-- What is met in a configuration. -/
inductive Token where
  | enter (file : Option String)
  | leave
  | one (e : Element)

/-- The value of a `Permission` field. -/
def readField (f : IdField) (raw : String) (s : St Reading) : Res Val × St Reading :=
  match run (zcmlLang f) Zcml.Permission.fromUnicode [.sym "self", strV raw] s with
  | (.ok (.v x), s1) => (.ok x, s1)
  | (.ok _, s1) => (.diverge, s1)
  | (.err e, s1) => (.err e, s1)
  | (.diverge, s1) => (.diverge, s1)

/-- Reading a directive.  The id of `permission` is a plain `Id` field (zcml.py:80-83). -/
def sourceElement (f : IdField) (N : Naming) (el : Element) (s : St Reading) : Res PV × St Reading :=
  match el with
  | .permission raw t d =>
    if f.valid (f.strip raw) then
      run (zcmlLang f) Zcml.permission ([.sym "_context", strV (f.strip raw), strV t] ++ d.toList.map strV) s
    else (.err .configurationError, s)
  | .redefine a b =>
    match readField f a s with
    | (.ok a', s1) =>
      match readField f b s1 with
      | (.ok b', s2) => run (zcmlLang f) Zcml.redefinePermission [.sym "_context", .v a', .v b'] s2
      | (.err e, s2) => (.err e, s2)
      | (.diverge, s2) => (.diverge, s2)
    | (.err e, s1) => (.err e, s1)
    | (.diverge, s1) => (.diverge, s1)
  | .policy p => run (zcmlLang f) Zcml.securityPolicy [.sym "_context", .policy p] s
  | .plain c => sourceRead N c s
  | .guarded raw c =>
    match readField f raw s with
    | (.ok v, s1) => sourceRead N (c v) s1
    | (.err e, s1) => (.err e, s1)
    | (.diverge, s1) => (.diverge, s1)

/-- An action with the include path of the context it was emitted in. -/
abbrev Placed := List String × Raw

/-- Reading all of a configuration; `ps` are the include paths of the contexts. -/
def sourceTokens (f : IdField) (N : Naming) : List (List String) → List Token → St Reading → Res (List Placed)
  | _, [], _ => .ok []
  | ps, .enter file :: r, s =>
    sourceTokens f N ((ps.headD [] ++ file.toList) :: ps) r { s with app := { s.app with maps := none :: s.app.maps } }
  | _ :: p :: ps, .leave :: r, s => sourceTokens f N (p :: ps) r { s with app := { s.app with maps := s.app.maps.tail } }
  | _, .leave :: _, _ => .err .configurationError
  | ps, .one el :: r, s =>
    match sourceElement f N el { s with app := { s.app with actions := [] } } with
    | (.ok _, s1) =>
      match sourceTokens f N ps r s1 with
      | .ok l => .ok (s1.app.actions.map (fun a => (ps.headD [], a)) ++ l)
      | .err e => .err e
      | .diverge => .diverge
    | (.err e, _) => .err e
    | (.diverge, _) => .diverge

/-- The directive that stands for an event of `Model/File.lean`. -/
inductive Stated : Ev → Element → Prop where
  | permission {raw title description} : Stated (.permission raw) (.permission raw title description)
  | redefine {a b} : Stated (.redefine a b) (.redefine a b)
  | policy {p} : Stated (.policy p) (.policy p)
  | require {t r c} : r.permission = none → Writes (.cls t (.require (r.read .none))) c → Stated (.cls t (.require r)) (.plain c)
  | requirePermission {t r raw c} : r.permission = some raw → (∀ v, Writes (.cls t (.require (r.read (idVal v)))) (c (idVal v))) →
      Stated (.cls t (.require r)) (.guarded raw c)
  | allow {t a i c} : Writes (.cls t (.allow a i)) c → Stated (.cls t (.allow a i)) (.plain c)
  | implements {t i c} : Writes (.cls t (.implements i)) c → Stated (.cls t (.implements i)) (.plain c)
  | modAllow {m a i c} : Writes (.mod m (.allow a i)) c → Stated (.mod m (.allow a i)) (.plain c)
  | modRequire {m raw a i c} : (∀ v, Writes (.mod m (.require (idVal v) a i)) (c (idVal v))) →
      Stated (.mod m (.require raw a i)) (.guarded raw c)

/-- The text that stands for the events. -/
inductive Written : List Ev → List Token → Prop where
  | nil : Written [] []
  | enter {file l ts} : Written l ts → Written (.enter file :: l) (.enter file :: ts)
  | leave {l ts} : Written l ts → Written (.leave :: l) (.leave :: ts)
  | one {e el l ts} : Stated e el → Written l ts → Written (e :: l) (.one el :: ts)

/-! ## Actions -/

/-- The action in the source that stands for one of the model. -/
inductive Stands (N : Naming) : FAction → Placed → Prop where
  | check {u path} : Stands N ⟨none, 9999999, path, .check u⟩ (path, rawCheck u)
  | define {id title description path} : Stands N ⟨some (.utility id), 0, path, .define id⟩ (path, rawDefine id title description)
  | policy {p path} : Stands N ⟨some .defaultPolicy, 0, path, .policy p⟩ (path, rawPolicy p)
  | declare {a path} : Stands N ⟨discOf a, 0, path, .declare a⟩ (path, rawOf N a)

/-- Two actions, one standing for the other. -/
abbrev Pair (N : Naming) := { p : FAction × Placed // Stands N p.1 p.2 }

/-- One by one, the actions in the source stand for those of the model. -/
def Paired (N : Naming) (l : List FAction) (rs : List Placed) : Prop :=
  ∃ pl : List (Pair N), pl.map (·.1.1) = l ∧ pl.map (·.1.2) = rs

theorem paired_nil (N : Naming) : Paired N [] [] := ⟨[], rfl, rfl⟩

theorem paired_one {N : Naming} {a : FAction} {r : Placed} (h : Stands N a r) : Paired N [a] [r] := ⟨[⟨(a, r), h⟩], rfl, rfl⟩

theorem paired_append {N : Naming} {l l' : List FAction} {rs rs' : List Placed} (h : Paired N l rs) (h' : Paired N l' rs') : Paired N (l ++ l') (rs ++ rs') := by
  obtain ⟨p, rfl, rfl⟩ := h
  obtain ⟨q, rfl, rfl⟩ := h'
  exact ⟨p ++ q, List.map_append, List.map_append⟩

theorem paired_declare (N : Naming) (path : List String) (l : List Action) :
    Paired N (l.map fun a => ⟨discOf a, 0, path, .declare a⟩) ((l.map (rawOf N)).map fun r => (path, r)) :=
  ⟨l.map fun a => ⟨(⟨discOf a, 0, path, .declare a⟩, (path, rawOf N a)), .declare⟩, by rw [List.map_map]; rfl, by rw [List.map_map, List.map_map]; rfl⟩

theorem paired_field (N : Naming) (path : List String) (l : List ZAction) :
    Paired N (l.flatMap (fieldAction path)) ((l.flatMap fieldRaw).map fun r => (path, r)) := by
  induction l with
  | nil => exact paired_nil N
  | cons a r ih =>
    rw [List.flatMap_cons, List.flatMap_cons, List.map_append]
    refine paired_append ?_ ih
    cases a with
    | check u => exact paired_one .check
    | _ => exact paired_nil N

/-! ## Contexts -/

/-- The contexts of the source are those of the model: each has a dictionary of its own for its redefinitions, or none. -/
def Around (s : St Reading) : List (Option Nat) → List Frame → Prop
  | [], [] => True
  | o :: ms, c :: st => o.map s.dicts = c.mapping.map mapV ∧ Around s ms st
  | _, _ => False

/-- The state of the reading is that of the model. -/
structure Nested (s : St Reading) (st : List Frame) : Prop where
  around : Around s s.app.maps st
  older : ∀ d, some d ∈ s.app.maps → d < s.nextId
  apart : (s.app.maps.filterMap id).Nodup

theorem around_congr {s s' : St Reading} : ∀ {ms : List (Option Nat)} {st : List Frame}, (∀ d, some d ∈ ms → s'.dicts d = s.dicts d) → Around s ms st → Around s' ms st
  | [], [], _, _ => trivial
  | o :: ms, c :: st, h, ha => by
    refine ⟨?_, around_congr (fun d hd => h d (List.mem_cons_of_mem _ hd)) ha.2⟩
    rw [← ha.1]
    cases o with
    | none => rfl
    | some d => exact congrArg some (h d List.mem_cons_self)
  | [], _ :: _, _, ha => ha.elim
  | _ :: _, [], _, ha => ha.elim

theorem Nested.keeps {s s' : St Reading} {st : List Frame} (hA : Nested s st) (hk : Keeps s s') : Nested s' st := by
  refine ⟨?_, ?_, ?_⟩
  · rw [hk.maps]
    exact around_congr (fun d hd => hk.older d (hA.older d hd)) hA.around
  · intro d hd
    rw [hk.maps] at hd
    exact Nat.lt_of_lt_of_le (hA.older d hd) hk.next
  · rw [hk.maps]; exact hA.apart

theorem Keeps.trans {s s' s'' : St Reading} (h : Keeps s s') (h' : Keeps s' s'') : Keeps s s'' :=
  ⟨h'.maps.trans h.maps, fun d hd => (h'.older d (Nat.lt_of_lt_of_le hd h.next)).trans (h.older d hd), Nat.le_trans h.next h'.next⟩

theorem keeps_emit (s : St Reading) (l : List Raw) : Keeps s (emit s l) := ⟨rfl, fun _ _ => rfl, Nat.le_refl _⟩

theorem keeps_afterDict (s : St Reading) : Keeps s (afterDict s) :=
  ⟨rfl, fun _ hd => if_neg (Nat.ne_of_lt hd), Nat.le_succ _⟩

theorem keeps_clear (s : St Reading) : Keeps s { s with app := { s.app with actions := [] } } := ⟨rfl, fun _ _ => rfl, Nat.le_refl _⟩

theorem around_force {s : St Reading} : ∀ {ms : List (Option Nat)} {st : List Frame}, Around s ms st → (mapping? ms).map s.dicts = (inForce st).map mapV
  | [], [], _ => rfl
  | o :: ms, c :: st, ha => by
    have h1 := ha.1
    unfold mapping? inForce
    cases o with
    | none =>
      cases hc : c.mapping with
      | none => exact around_force ha.2
      | some m => rw [hc] at h1; cases h1
    | some d =>
      cases hc : c.mapping with
      | none => rw [hc] at h1; cases h1
      | some m => rw [hc] at h1; exact h1
  | [], _ :: _, ha => ha.elim
  | _ :: _, [], ha => ha.elim

theorem mapping_mem : ∀ {ms : List (Option Nat)} {d : Nat}, mapping? ms = some d → some d ∈ ms
  | [], _, h => by cases h
  | some e :: ms, d, h => by
    cases h
    exact List.mem_cons_self
  | none :: ms, d, h => List.mem_cons_of_mem _ (mapping_mem (ms := ms) h)

theorem around_redefine {s : St Reading} {d : Nat} {a b : String} : ∀ {ms : List (Option Nat)} {st : List Frame}, Around s ms st →
    (ms.filterMap id).Nodup → mapping? ms = some d → Around (withDict s d ((s.dicts d).set a (idVal b))) ms (redefineIn a b st)
  | [], [], _, _, h => by cases h
  | none :: ms, c :: st, ha, hn, h => by
    have h1 := ha.1
    unfold redefineIn
    cases hc : c.mapping with
    | none => exact ⟨h1, around_redefine ha.2 hn h⟩
    | some m => rw [hc] at h1; cases h1
  | some e :: ms, c :: st, ha, hn, h => by
    cases h
    have h1 := ha.1
    unfold redefineIn
    cases hc : c.mapping with
    | none => rw [hc] at h1; cases h1
    | some m =>
      rw [hc] at h1
      have h2 : s.dicts d = mapV m := Option.some.inj h1
      refine ⟨?_, ?_⟩
      · change some ((withDict s d ((s.dicts d).set a (idVal b))).dicts d) = some (mapV (m.set a b))
        rw [withDict_self, h2, mapV_set]
      · refine around_congr (fun x hx => if_neg ?_) ha.2
        intro hxd
        subst hxd
        rw [List.filterMap_cons] at hn
        exact (List.nodup_cons.mp hn).1 (List.mem_filterMap.mpr ⟨some x, hx, rfl⟩)
  | [], _ :: _, ha, _, _ => ha.elim
  | _ :: _, [], ha, _, _ => ha.elim

/-- `redefinePermission` (zcml.py:119-126) in any nesting of contexts: the contexts are as the model has them afterwards. -/
theorem redefine_agree (f : IdField) (a b : String) {s : St Reading} {st : List Frame} (hA : Nested s st) (hst : st ≠ []) :
    ∃ s', run (zcmlLang f) Zcml.redefinePermission [.sym "_context", strV a, strV b] s = (.ok (.v .none), s') ∧ Nested s' (redefineAt a b st)
      ∧ s'.app.actions = s.app.actions := by
  rw [C81_redefine]
  have hf := around_force hA.around
  unfold redefineAt
  cases hq : mapping? s.app.maps with
  | some d =>
    rw [hq] at hf
    cases hi : inForce st with
    | none => rw [hi] at hf; cases hf
    | some m => exact ⟨_, rfl, ⟨around_redefine hA.around hA.apart hq, hA.older, hA.apart⟩, rfl⟩
  | none =>
    rw [hq] at hf
    cases hi : inForce st with
    | some m => rw [hi] at hf; cases hf
    | none =>
      refine ⟨_, rfl, ?_, rfl⟩
      have hr := hA.around
      have ho := hA.older
      have hn := hA.apart
      cases st with
      | nil => exact absurd rfl hst
      | cons c st =>
        cases hm : s.app.maps with
        | nil => rw [hm] at hr; exact hr.elim
        | cons o ms =>
          rw [hm] at hr ho hn
          have hon : o = none := by
            rw [hm] at hq
            cases o with
            | none => rfl
            | some d => cases hq
          subst hon
          refine ⟨⟨?_, ?_⟩, ?_, ?_⟩
          · change some ((withDict _ _ _).dicts _) = _
            rw [withDict_self]
            rfl
          · refine around_congr (fun x hx => ?_) hr.2
            have hx' := Nat.ne_of_lt (ho x (List.mem_cons_of_mem _ hx))
            exact (if_neg hx').trans (if_neg hx')
          · intro d hd
            change some d ∈ some s.nextId :: ms at hd
            cases hd with
            | head => exact Nat.lt_succ_self _
            | tail _ hd => exact Nat.lt_succ_of_lt (ho d (List.mem_cons_of_mem _ hd))
          · change ((some s.nextId :: ms).filterMap id).Nodup
            rw [List.filterMap_cons]
            refine List.nodup_cons.mpr ⟨?_, hn⟩
            intro h
            obtain ⟨o, ho', hx⟩ := List.mem_filterMap.mp h
            cases hx
            exact Nat.lt_irrefl _ (ho _ (List.mem_cons_of_mem _ ho'))

/-! ## Reading is what the model says -/

/-- A permission field. -/
theorem field_agree (f : IdField) (N : Naming) (raw : String) {s : St Reading} {st : List Frame} (hA : Nested s st) :
    match readPermission f st raw with
    | .ok (v, l) => ∃ s' R, readField f raw s = (.ok (idVal v), s') ∧ Keeps s s' ∧ s'.app.actions = s.app.actions ++ R
        ∧ Paired N l (R.map fun r => (currentPath st, r))
    | .err e => ∃ s', readField f raw s = (.err e, s')
    | .diverge => False := by
  have h := C81_fromUnicode f (inForce st) raw s (around_force hA.around) (fun d hd => hA.older d (mapping_mem hd))
  unfold readPermission readField
  rw [h]
  have hx : permissionFromUnicode f ⟨inForce st, []⟩ raw ≠ .diverge := by
    unfold permissionFromUnicode validatePermission
    split
    · intro h; cases h
    · intro h; cases h
    · rename_i h
      split at h
      · split at h <;> cases h
      · cases h
  cases hp : permissionFromUnicode f ⟨inForce st, []⟩ raw with
  | diverge => exact absurd hp hx
  | err e => exact ⟨s, rfl⟩
  | ok x =>
    obtain ⟨v, c⟩ := x
    exact ⟨_, c.actions.flatMap fieldRaw, rfl, (keeps_emit _ _).trans (keeps_afterDict _), rfl, paired_field N _ _⟩

/-- A directive of metaconfigure.py. -/
theorem directive_agree (N : Naming) (d : Directive) (c : Invocation) (hw : Writes d c) (path : List String) (s : St Reading) :
    match emitIn path d with
    | .ok l => ∃ x s' R, sourceRead N c s = (.ok x, s') ∧ Keeps s s' ∧ s'.app.actions = s.app.actions ++ R ∧ Paired N l (R.map fun r => (path, r))
    | .err e => ∃ s', sourceRead N c s = (.err e, s')
    | .diverge => False := by
  obtain ⟨s', h1, h2, h3⟩ := directive_keeps N d c hw s
  unfold emitIn
  cases he : (emitDirective d).2 with
  | some e =>
    rw [he] at h1
    exact ⟨s', h1⟩
  | none =>
    rw [he] at h1
    exact ⟨_, s', _, h1, h3, h2, paired_declare N path _⟩

/-- What reading a directive has to lead to, given what the model says of it. -/
def Outcome (N : Naming) (st : List Frame) (o : Res (List Frame × List FAction)) (r : Res PV × St Reading) : Prop :=
  match o with
  | .ok (st', l) => ∃ x s', r = (.ok x, s') ∧ Nested s' st' ∧ Paired N l (s'.app.actions.map fun r => (currentPath st, r))
      ∧ st'.map Frame.path = st.map Frame.path
  | .err e => ∃ s', r = (.err e, s')
  | .diverge => False

theorem outcome_plain (N : Naming) (d : Directive) (c : Invocation) (hw : Writes d c) {s : St Reading} {st : List Frame} (hA : Nested s st)
    {l : List FAction} {R : List Raw} (hs : s.app.actions = R) (hl : Paired N l (R.map fun r => (currentPath st, r))) :
    Outcome N st (match emitIn (currentPath st) d with
      | .ok l' => .ok (st, l ++ l')
      | .err e => .err e
      | .diverge => .diverge) (sourceRead N c s) := by
  have h := directive_agree N d c hw (currentPath st) s
  cases he : emitIn (currentPath st) d with
  | ok l' =>
    rw [he] at h
    obtain ⟨x, s', R', h1, h2, h3, h4⟩ := h
    refine ⟨x, s', h1, hA.keeps h2, ?_, rfl⟩
    rw [h3, hs, List.map_append]
    exact paired_append hl h4
  | err e =>
    rw [he] at h
    exact h
  | diverge =>
    rw [he] at h
    exact h

theorem outcome_guarded (f : IdField) (N : Naming) (raw : String) (d : Val → Directive) (c : Val → Invocation) (hw : ∀ v, Writes (d (idVal v)) (c (idVal v)))
    {s : St Reading} {st : List Frame} (hA : Nested s st) (hs : s.app.actions = []) :
    Outcome N st (match (match readPermission f st raw with
        | .ok (v, l) => .ok (some (d (idVal v), l))
        | .err e => .err e
        | .diverge => .diverge : Res (Option (Directive × List FAction))) with
      | .ok (some (d, l)) =>
        match emitIn (currentPath st) d with
        | .ok l' => .ok (st, l ++ l')
        | .err e => .err e
        | .diverge => .diverge
      | .ok none => .ok (st, [])
      | .err e => .err e
      | .diverge => .diverge) (sourceElement f N (.guarded raw c) s) := by
  have h := field_agree f N raw hA
  unfold sourceElement
  cases hp : readPermission f st raw with
  | ok x =>
    obtain ⟨v, l⟩ := x
    rw [hp] at h
    obtain ⟨s1, R, h1, h2, h3, h4⟩ := h
    simp only [h1]
    exact outcome_plain N _ _ (hw v) (hA.keeps h2) (h3.trans (by rw [hs, List.nil_append])) h4
  | err e =>
    rw [hp] at h
    obtain ⟨s1, h1⟩ := h
    simp only [h1]
    exact ⟨s1, rfl⟩
  | diverge =>
    rw [hp] at h
    exact h.elim

/-- **C81** A directive read from its source, in any nesting of contexts, does what the model says: it emits the same actions, raises the same exception
and leaves the same redefinitions. -/
theorem C81_element (f : IdField) (N : Naming) (e : Ev) (el : Element) (hw : Stated e el) {s : St Reading} {st : List Frame} (hA : Nested s st)
    (hst : st ≠ []) (hs : s.app.actions = []) : Outcome N st (readEv f st e) (sourceElement f N el s) := by
  cases hw with
  | @permission raw title description =>
    unfold readEv sourceElement
    by_cases hv : f.valid (f.strip raw) = true
    · simp only [hv, if_true]
      have h : ∃ d, run (zcmlLang f) Zcml.permission ([.sym "_context", strV (f.strip raw), strV title] ++ description.toList.map strV) s
          = (.ok (.v .none), emit s [rawDefine (f.strip raw) title d]) := by
        cases description with
        | none => exact ⟨_, (C81_permission f (f.strip raw) title "" s).2⟩
        | some d => exact ⟨_, (C81_permission f (f.strip raw) title d s).1⟩
      obtain ⟨d, h⟩ := h
      refine ⟨_, _, h, hA.keeps (keeps_emit _ _), ?_, rfl⟩
      change Paired N _ ((s.app.actions ++ _).map _)
      rw [hs]
      exact paired_one .define
    · simp only [hv]
      exact ⟨s, rfl⟩
  | @redefine a b =>
    unfold readEv sourceElement
    have h := field_agree f N a hA
    cases hp : readPermission f st a with
    | ok x =>
      obtain ⟨a', l1⟩ := x
      rw [hp] at h
      obtain ⟨s1, R1, h1, h2, h3, h4⟩ := h
      simp only [hp, h1]
      have h' := field_agree f N b (hA.keeps h2)
      cases hp' : readPermission f st b with
      | ok x =>
        obtain ⟨b', l2⟩ := x
        rw [hp'] at h'
        obtain ⟨s2, R2, g1, g2, g3, g4⟩ := h'
        simp only [g1]
        obtain ⟨s', r1, r2, r3⟩ := redefine_agree f a' b' ((hA.keeps h2).keeps g2) hst
        refine ⟨_, s', r1, r2, ?_, ?_⟩
        · rw [r3, g3, h3, hs, List.nil_append, List.map_append]
          exact paired_append h4 g4
        · have hin : ∀ st : List Frame, (redefineIn a' b' st).map Frame.path = st.map Frame.path := by
            intro st
            induction st with
            | nil => rfl
            | cons c r ih =>
              unfold redefineIn
              cases c.mapping with
              | none => exact congrArg (c.path :: ·) ih
              | some m => rfl
          unfold redefineAt
          cases inForce st with
          | some m => exact hin st
          | none => cases st <;> rfl
      | err e =>
        rw [hp'] at h'
        obtain ⟨s2, g1⟩ := h'
        simp only [g1]
        exact ⟨s2, rfl⟩
      | diverge => rw [hp'] at h'; exact h'.elim
    | err e =>
      rw [hp] at h
      obtain ⟨s1, h1⟩ := h
      simp only [hp, h1]
      exact ⟨s1, rfl⟩
    | diverge => rw [hp] at h; exact h.elim
  | @policy p =>
    unfold readEv sourceElement
    refine ⟨_, _, C81_securityPolicy f p s, hA.keeps (keeps_emit _ _), ?_, rfl⟩
    change Paired N _ ((s.app.actions ++ _).map _)
    rw [hs]
    exact paired_one .policy
  | @require t r c hr hw =>
    have h := outcome_plain N _ c hw hA hs (l := []) (paired_nil N)
    unfold readEv readDirective sourceElement
    simp only [hr]
    exact h
  | @requirePermission t r raw c hr hw =>
    have h := outcome_guarded f N raw (fun v => .cls t (.require (r.read v))) c hw hA hs
    unfold readEv readDirective
    simp only [hr]
    exact h
  | allow hw => exact outcome_plain N _ _ hw hA hs (l := []) (paired_nil N)
  | implements hw => exact outcome_plain N _ _ hw hA hs (l := []) (paired_nil N)
  | modAllow hw => exact outcome_plain N _ _ hw hA hs (l := []) (paired_nil N)
  | @modRequire m raw a i c hw => exact outcome_guarded f N raw (fun v => .mod m (.require v a i)) c hw hA hs

theorem path_head (st : List Frame) : (st.map Frame.path).headD [] = currentPath st := by
  cases st <;> rfl

/-- **C81** The same for all of a configuration: the actions read from the source stand for those of the model, one by one, with the include paths. -/
theorem C81_reading (f : IdField) (N : Naming) (evs : List Ev) (ts : List Token) (hw : Written evs ts) {s : St Reading} {st : List Frame} (hA : Nested s st)
    (hst : st ≠ []) :
    match readEvs f st evs with
    | .ok (_, l) => ∃ rs, sourceTokens f N (st.map Frame.path) ts s = .ok rs ∧ Paired N l rs
    | .err e => sourceTokens f N (st.map Frame.path) ts s = .err e
    | .diverge => False := by
  induction hw generalizing s st with
  | nil => exact ⟨[], by unfold sourceTokens; rfl, paired_nil N⟩
  | @enter file l ts hw ih =>
    have hA' : Nested { s with app := { s.app with maps := none :: s.app.maps } } (⟨none, currentPath st ++ file.toList⟩ :: st) := by
      refine ⟨⟨rfl, around_congr (s := s) (fun _ _ => rfl) hA.around⟩, ?_, hA.apart⟩
      intro d hd
      cases hd with
      | tail _ hd => exact hA.older d hd
    have h := ih hA' (by simp)
    unfold readEvs readEv sourceTokens
    rw [path_head]
    simp only
    simp only [List.map_cons] at h
    cases hr : readEvs f (⟨none, currentPath st ++ file.toList⟩ :: st) l with
    | ok x => rw [hr] at h; exact h
    | err e => rw [hr] at h; exact h
    | diverge => rw [hr] at h; exact h
  | @leave l ts hw ih =>
    match st, hst, hA with
    | [_], _, _ => rfl
    | c :: c' :: st, _, hA =>
      have hA' : Nested { s with app := { s.app with maps := s.app.maps.tail } } (c' :: st) := by
        have hr := hA.around
        have ho := hA.older
        have hn := hA.apart
        cases hm : s.app.maps with
        | nil => rw [hm] at hr; exact hr.elim
        | cons o ms =>
          rw [hm] at hr ho hn
          refine ⟨around_congr (s := s) (fun _ _ => rfl) hr.2, fun d hd => ho d (List.mem_cons_of_mem _ hd), ?_⟩
          cases o with
          | none => exact hn
          | some d =>
            rw [List.filterMap_cons] at hn
            exact (List.nodup_cons.mp hn).2
      have h := ih hA' (by simp)
      unfold readEvs readEv
      simp only
      rw [List.map_cons, List.map_cons]
      unfold sourceTokens
      rw [List.map_cons] at h
      cases hr : readEvs f (c' :: st) l with
      | ok x => rw [hr] at h; exact h
      | err e => rw [hr] at h; exact h
      | diverge => rw [hr] at h; exact h
  | @one e el l ts he hw ih =>
    have h := C81_element f N e el he (hA.keeps (keeps_clear s)) hst rfl
    unfold readEvs sourceTokens
    cases hr : readEv f st e with
    | ok x =>
      obtain ⟨st1, l1⟩ := x
      rw [hr] at h
      obtain ⟨x, s1, h1, h2, h3, h4⟩ := h
      have hst1 : st1 ≠ [] := by
        intro h0
        subst h0
        cases st with
        | nil => exact hst rfl
        | cons _ _ => cases h4
      have h' := ih h2 hst1
      simp only [h1]
      rw [h4] at h'
      cases hr' : readEvs f st1 l with
      | ok y =>
        rw [hr'] at h'
        obtain ⟨rs, g1, g2⟩ := h'
        simp only [g1]
        rw [path_head]
        exact ⟨_, rfl, paired_append h3 g2⟩
      | err e' =>
        rw [hr'] at h'
        simp only [h']
      | diverge => rw [hr'] at h'; exact h'
    | err e' =>
      rw [hr] at h
      obtain ⟨s1, h1⟩ := h
      simp only [h1]
    | diverge => rw [hr] at h; exact h

/-! ## Conflicts -/

/-- A part of a discriminator, as it is compared: strings by their text. -/
def keyPart : PV → Option (Val ⊕ Name)
  | .v (.str _ n) => some (.inl (.str 0 n))
  | .v x => some (.inl x)
  | .sym c => if c = "object()" then none else some (.inr c)
  | _ => none

/-- The parts of a tuple, unless one of them is a new object. -/
def keyParts : List PV → Option (List (Val ⊕ Name))
  | [] => some []
  | x :: r =>
    match keyPart x, keyParts r with
    | some a, some l => some (a :: l)
    | _, _ => none

/-- The discriminator of an action, if it can be equal to another: not `None` and without a new object. -/
def discKey (r : Raw) : Option ((Val ⊕ Name) ⊕ List (Val ⊕ Name)) :=
  match takeKw "discriminator" r with
  | some (.v .none) => none
  | some (.tuple l) => (keyParts l).map .inr
  | some x => (keyPart x).map .inl
  | none => none

/-- The order of an action, 0 unless given. -/
def rawOrder (r : Raw) : Nat :=
  match takeKw "order" r with
  | some (.v (.int n)) => n.toNat
  | _ => 0

/-- `resolveConflicts` of zope.configuration, for what the source has emitted. -/
def sourceResolve (l : List Placed) : Option (List Placed) :=
  resolveWith (fun a => discKey a.2) (fun a => rawOrder a.2) (fun a => a.1) l

/-- The discriminators of the model as the source writes them. -/
def discEnc : Disc → (Val ⊕ Name) ⊕ List (Val ⊕ Name)
  | .protectName (.ty t) n => .inr [.inl (.str 0 "protectName"), .inl (.type t), .inl (.str 0 n)]
  | .protectName (.mod m) n => .inr [.inl (.str 0 "http://namespaces.zope.org/zope:module"), .inl (.module m), .inl (.str 0 n)]
  | .protectSetAttribute k n => .inr [.inl (.str 0 "protectSetAttribute"), .inl k.val, .inl (.str 0 n)]
  | .utility id => .inr [.inl (.str 0 "utility"), .inr "zope.security.interfaces.IPermission", .inl (.str 0 id)]
  | .defaultPolicy => .inl (.inl (.str 0 "defaultPolicy"))

theorem discEnc_inj : Function.Injective discEnc := by
  have hv : ∀ k k' : Key, k.val = k'.val → k = k' := by intro k k'; cases k <;> cases k' <;> simp [Key.val]
  intro a b h
  cases a with
  | protectName k n => cases k <;> cases b with
    | protectName k' n' => cases k' <;> simp_all [discEnc]
    | _ => simp_all [discEnc]
  | protectSetAttribute k n => cases b with
    | protectName k' n' => cases k' <;> simp_all [discEnc]
    | protectSetAttribute k' n' =>
      simp only [discEnc, Sum.inr.injEq, List.cons.injEq, Sum.inl.injEq, Val.str.injEq, true_and, and_true] at h
      rw [hv _ _ h.1, h.2]
    | _ => simp_all [discEnc]
  | _ => cases b with
    | protectName k' n' => cases k' <;> simp_all [discEnc]
    | _ => simp_all [discEnc]

theorem stands_disc {N : Naming} {a : FAction} {r : Placed} (h : Stands N a r) : discKey r.2 = a.disc.map discEnc := by
  cases h with
  | @declare a path =>
    cases a with
    | name k n p => cases k <;> rfl
    | setAttr k n p => cases k <;> rfl
    | mimic k u => cases k <;> rfl
    | classImplements k i => cases k <;> rfl
    | provideInterface i => rfl
  | _ => rfl

theorem stands_order {N : Naming} {a : FAction} {r : Placed} (h : Stands N a r) : rawOrder r.2 = a.order := by
  cases h with
  | @declare a path =>
    cases a with
    | name k n p => cases k <;> rfl
    | _ => rfl
  | _ => rfl

theorem stands_path {N : Naming} {a : FAction} {r : Placed} (h : Stands N a r) : r.1 = a.path := by
  cases h <;> rfl

/-- **C81** Conflicts between the actions of the source are those between the actions of the model, and the actions that remain are the same ones, in the same order. -/
theorem C81_conflicts (N : Naming) (l : List FAction) (rs : List Placed) (h : Paired N l rs) :
    match resolveConflicts l with
    | some l' => ∃ rs', sourceResolve rs = some rs' ∧ Paired N l' rs'
    | none => sourceResolve rs = none := by
  obtain ⟨pl, rfl, rfl⟩ := h
  rw [resolve_eq]
  unfold sourceResolve
  rw [resolve_map FAction.disc FAction.order FAction.path (fun p : Pair N => p.1.1.disc) (fun p => p.1.1.order) (fun p => p.1.1.path) (fun p => p.1.1) id
      (fun _ _ h => h) (fun _ => (Option.map_id_apply).symm) (fun _ => rfl) (fun _ => rfl) pl,
    resolve_map (fun a : Placed => discKey a.2) (fun a => rawOrder a.2) (fun a => a.1) (fun p : Pair N => p.1.1.disc) (fun p => p.1.1.order) (fun p => p.1.1.path)
      (fun p => p.1.2) discEnc discEnc_inj (fun p => stands_disc p.2) (fun p => stands_order p.2) (fun p => stands_path p.2) pl]
  cases resolveWith (fun p : Pair N => p.1.1.disc) (fun p => p.1.1.order) (fun p => p.1.1.path) pl with
  | none => rfl
  | some q => exact ⟨_, rfl, q, rfl, rfl⟩

/-! ## Carrying out -/

variable {A : Type}

/-- Running something on the state of a site. -/
def onState (m : M A PV) (x : Site A) : Res Unit × Site A :=
  match m x.state with
  | (.ok _, s) => (.ok (), { x with state := s })
  | (.err e, s) => (.err e, { x with state := s })
  | (.diverge, s) => (.diverge, { x with state := s })

theorem onState_unit (m : M A Unit) (x : Site A) : onState (unit m) x = ((m x.state).1, { x with state := (m x.state).2 }) := by
  have h : unit m x.state = ((match (m x.state).1 with
      | .ok _ => .ok (.v .none)
      | .err e => .err e
      | .diverge => .diverge : Res PV), (m x.state).2) := by
    refine fork_run ?_
    unfold unit
    rw [fork_bind]
    unfold fork
    cases m x.state with
    | mk r s => cases r <;> rfl
  unfold onState
  rw [h]
  cases m x.state with
  | mk r s => cases r <;> rfl

/-- The permissions that can be found: those of the site when no context is given. -/
def siteRegistry (us : Utilities) : Registry where
  utilities := fun
    | .v .none => us
    | _ => []
  truth := fun _ => true
  esc := id

/-- Carrying out an action: `handler` of zope.component registers the permission; the others are run from their source. -/
def sourceCall (X : Ctx A) (x : Site A) (r : Raw) : Res Unit × Site A :=
  match takeKw "callable" r, takeKw "args" r with
  | some (.sym c), some (.tuple l) =>
    if c = "handler" then
      match l with
      | [.v (.str _ what), .tuple _, .sym i, .v (.str _ n)] =>
        if what = "registerUtility" ∧ i = "zope.security.interfaces.IPermission" then (.ok (), { x with utilities := (n, 0) :: x.utilities })
        else (.diverge, x)
      | _ => (.diverge, x)
    else if c = "checkPermission" then onState (run (permLang (siteRegistry x.utilities)) Permission.checkPermission l) x
    else if c = "setSecurityPolicy" then onState (run (lang X own) Management.setSecurityPolicy l) x
    else onState (sourceAct X r) x
  | _, _ => (.diverge, x)

/-- Carrying out actions one after the other until one raises. -/
def sourceCalls (X : Ctx A) (x : Site A) : List Raw → Res Unit × Site A
  | [] => (.ok (), x)
  | r :: l =>
    match sourceCall X x r with
    | (.ok _, x1) => sourceCalls X x1 l
    | (.err e, x1) => (.err e, x1)
    | (.diverge, x1) => (.diverge, x1)

/-- **C81** Carrying out an action of the source is carrying out the action of the model it stands for. -/
theorem C81_call (X : Ctx A) (N : Naming) (a : FAction) (r : Placed) (h : Stands N a r) (x : Site A) :
    sourceCall X x r.2 = runCall x a.call := by
  cases h with
  | @check u path =>
    have hc : sourceCall X x (rawCheck u) = onState (run (permLang (siteRegistry x.utilities)) Permission.checkPermission [.v .none, .v (permVal (.id u))]) x := rfl
    change sourceCall X x (rawCheck u) = _
    rw [hc, C81_checkPermission]
    change onState (unit (giving (checkPermissionDefined x.utilities (fun _ => true) (.id u)))) x = (checkPermissionDefined x.utilities (fun _ => true) (.id u), x)
    cases checkPermissionDefined x.utilities (fun _ => true) (.id u) <;> rfl
  | define => rfl
  | @policy p path =>
    have hc : sourceCall X x (rawPolicy p) = onState (run (lang X own) Management.setSecurityPolicy [.policy p]) x := rfl
    change sourceCall X x (rawPolicy p) = _
    rw [hc, C77_setSecurityPolicy]
    rfl
  | @declare a path =>
    have hc : sourceCall X x (rawOf N a) = onState (sourceAct X (rawOf N a)) x := by
      cases a with
      | name k n p => cases k <;> rfl
      | _ => rfl
    change sourceCall X x (rawOf N a) = _
    rw [hc, C80_action, onState_unit]
    rfl

theorem calls_paired (X : Ctx A) (N : Naming) (pl : List (Pair N)) : ∀ x : Site A,
    sourceCalls X x ((pl.map (·.1.2)).map (·.2)) = runCalls x ((pl.map (·.1.1)).map (·.call)) := by
  induction pl with
  | nil => intro x; rfl
  | cons p r ih =>
    intro x
    simp only [List.map_cons]
    unfold sourceCalls runCalls
    rw [C81_call X N p.1.1 p.1.2 p.2 x]
    cases hr : runCall x p.1.1.call with
    | mk o x1 =>
      cases o with
      | ok _ => exact ih x1
      | err e => rfl
      | diverge => rfl

/-- A configuration, from the source: it is read, conflicts are resolved, and what remains is carried out. -/
def sourceLoad (X : Ctx A) (f : IdField) (N : Naming) (r0 : St Reading) (ts : List Token) (x : Site A) : Res Unit × Site A :=
  match sourceTokens f N [[]] ts r0 with
  | .ok l =>
    match sourceResolve l with
    | some l => sourceCalls X x (l.map (·.2))
    | none => (.err .configurationError, x)
  | .err e => (.err e, x)
  | .diverge => (.diverge, x)

/-- **C81** Loading a configuration by the source is what the model says, for all configurations: whatever is nested or included, redefined, put off or in
conflict, the site is the same afterwards and the same exception is raised. -/
theorem C81_load (X : Ctx A) (f : IdField) (N : Naming) (evs : List Ev) (ts : List Token) (hw : Written evs ts) (r0 : St Reading)
    (h0 : r0.app.maps = [none]) (x : Site A) : sourceLoad X f N r0 ts x = loadFile f evs x := by
  have hA : Nested r0 [⟨none, []⟩] := by
    refine ⟨?_, ?_, ?_⟩
    · rw [h0]; exact ⟨rfl, trivial⟩
    · intro d hd
      rw [h0] at hd
      cases hd with
      | tail _ hd => cases hd
    · rw [h0]; exact List.nodup_nil
  have h := C81_reading f N evs ts hw hA (by simp)
  unfold sourceLoad loadFile
  change match readEvs f [⟨none, []⟩] evs with
    | .ok (_, l) => ∃ rs, sourceTokens f N [[]] ts r0 = .ok rs ∧ Paired N l rs
    | .err e => sourceTokens f N [[]] ts r0 = .err e
    | .diverge => False at h
  cases hr : readEvs f [⟨none, []⟩] evs with
  | err e => rw [hr] at h; simp only [h]
  | diverge => rw [hr] at h; exact h.elim
  | ok y =>
    obtain ⟨st, l⟩ := y
    rw [hr] at h
    obtain ⟨rs, h1, h2⟩ := h
    simp only [h1]
    have h3 := C81_conflicts N l rs h2
    cases hc : resolveConflicts l with
    | none => rw [hc] at h3; simp only [h3]
    | some l' =>
      rw [hc] at h3
      obtain ⟨rs', h4, pl, rfl, rfl⟩ := h3
      simp only [h4]
      exact calls_paired X N pl x

end ZS.Props
