import Verif.Lemmas.File
import Verif.Lemmas.Conflicts
import Verif.Props.Meta

/-!
# Actions and the events that emit them
-/

namespace ZS.Props
open Spec

/-! ## Reading one event -/

/-- The permission ids of an event, as written. -/
def givens : Ev → List String
  | .cls _ (.require r) => r.permission.toList
  | .mod _ (.require raw _ _) => [raw]
  | .redefine a b => [a, b]
  | _ => []

theorem mem_givens (e : Ev) (raw : String) : raw ∈ givens e ↔ Given e raw := by
  constructor
  · intro h
    cases e with
    | cls t sub =>
      cases sub with
      | require r => exact .require (by simpa [givens] using h)
      | _ => cases h
    | mod m sub =>
      cases sub with
      | require raw' l is =>
        simp only [givens, List.mem_singleton] at h
        subst h; exact .modRequire
      | _ => cases h
    | redefine a b =>
      simp only [givens, List.mem_cons, List.not_mem_nil, or_false] at h
      rcases h with rfl | rfl
      · exact .from_
      · exact .to
    | _ => cases h
  · intro h
    cases h with
    | require h => simp [givens, h]
    | _ => simp [givens]

/-- The checks of an id. -/
def checkOf (f : IdField) (π : List String) (raw : String) : List FAction :=
  if f.strip raw = "zope.Public" then [] else [⟨none, 9999999, π, .check (f.strip raw)⟩]

/-- The checks of an event. -/
def checksOf (f : IdField) (π : List String) (e : Ev) : List FAction := (givens e).flatMap (checkOf f π)

/-- A declaration as action. -/
def declared (π : List String) (a : Action) : FAction := ⟨discOf a, 0, π, .declare a⟩

/-- The other actions of an event. -/
inductive Own (f : IdField) (p : List Ev) : Ev → List FAction → Prop
  | permission {raw} : Own f p (.permission raw)
      [⟨some (.utility (f.strip raw)), 0, includePath p, .define (f.strip raw)⟩]
  | policy {q} : Own f p (.policy q) [⟨some .defaultPolicy, 0, includePath p, .policy q⟩]
  | directive {e d} : Meant f p e d → (emitDirective d).2 = none →
      Own f p e ((emitDirective d).1.map (declared (includePath p)))
  | enter {file} : Own f p (.enter file) []
  | leave : Own f p .leave []
  | redefine {a b} : Own f p (.redefine a b) []

theorem readPermission_spec {f : IdField} {p : List Ev} {st : List Frame} (h : Reflects f p st) (raw : String) :
    (f.valid (f.strip raw) = true →
      readPermission f st raw = .ok (mapOf (inForce st) (f.strip raw), checkOf f (includePath p) raw))
    ∧ (f.valid (f.strip raw) = false → readPermission f st raw = .err .configurationError) := by
  refine ⟨fun hv => ?_, fun hv => ?_⟩
  · have := (fromUnicode_ok (f := f) (c := ⟨inForce st, []⟩) (raw := raw)).mpr ⟨hv, rfl, rfl⟩
    unfold readPermission checkOf
    rw [this]
    by_cases hp : f.strip raw = "zope.Public"
    · simp [hp]
    · simp [hp, fieldAction, h.path, ZAction.order]
  · unfold readPermission permissionFromUnicode validatePermission
    simp [hv]

theorem meant_functional {f : IdField} {p : List Ev} {e : Ev} {d d' : Directive} (h : Meant f p e d)
    (h' : Meant f p e d') : d = d' := by
  cases h with
  | require h1 h2 =>
    cases h' with
    | require h3 h4 =>
      rw [h1] at h3; cases h3
      rw [standsFor_functional h2 h4]
    | requireNothing h3 => rw [h1] at h3; cases h3
  | requireNothing h1 =>
    cases h' with
    | require h3 h4 => rw [h1] at h3; cases h3
    | requireNothing h3 => rfl
  | modRequire h1 =>
    cases h' with
    | modRequire h3 => rw [standsFor_functional h1 h3]
  | _ => cases h'; rfl

theorem raises_functional {d : Directive} {x x' : Exn} (h : Raises d x) (h' : Raises d x') : x = x' := by
  have h1 := (emitDirective_raises d x).mpr h
  have h2 := (emitDirective_raises d x').mpr h'
  rw [h1] at h2; cases h2; rfl

theorem wrong_functional {f : IdField} {p : List Ev} {e : Ev} {x x' : Exn} (h : Wrong f p e x) (h' : Wrong f p e x') :
    x = x' := by
  cases h with
  | leave =>
    cases h' with
    | leave => rfl
    | given => rfl
    | directive _ hm => cases hm
  | permission =>
    cases h' with
    | permission => rfl
    | given => rfl
    | directive _ hm => cases hm
  | given h1 h2 =>
    cases h' with
    | leave => rfl
    | permission => rfl
    | given => rfl
    | directive h3 _ _ => rw [h3 _ h1] at h2; cases h2
  | directive h1 h2 h3 =>
    cases h' with
    | leave => cases h2
    | permission => cases h2
    | given h4 h5 => rw [h1 _ h4] at h5; cases h5
    | directive h4 h5 h6 =>
      cases meant_functional h2 h5
      exact raises_functional h3 h6

/-- What reading an event amounts to: it is read, or it is wrong. -/
def ReadAs (f : IdField) (p : List Ev) (st : List Frame) (e : Ev) : Prop :=
  (∃ st' own, readEv f st e = .ok (st', checksOf f (includePath p) e ++ own) ∧ Reflects f (p ++ [e]) st'
      ∧ Own f p e own ∧ ∀ x, ¬ Wrong f p e x)
    ∨ ∃ x, readEv f st e = .err x ∧ Wrong f p e x

/-- Directives about classes and modules. -/
theorem read_directive {f : IdField} {p : List Ev} {st : List Frame} {e : Ev} {d : Directive} (h : Reflects f p st)
    (he : Idle e) (hr : readEv f st e = match readDirective f st e with
        | .ok (some (d, l)) =>
          match emitIn (currentPath st) d with
          | .ok l' => .ok (st, l ++ l')
          | .err e => .err e
          | .diverge => .diverge
        | .ok none => .ok (st, [])
        | .err e => .err e
        | .diverge => .diverge)
    (hv : ∀ raw, Given e raw → f.valid (f.strip raw) = true) (hm : Meant f p e d) (hl : e ≠ .leave)
    (hpm : ∀ raw, e ≠ .permission raw)
    (hd : readDirective f st e = .ok (some (d, checksOf f (includePath p) e))) : ReadAs f p st e := by
  rw [hd] at hr
  simp only at hr
  cases hx : (emitDirective d).2 with
  | none =>
    refine .inl ⟨st, (emitDirective d).1.map (declared (includePath p)), ?_, reflects_idle he h, .directive hm hx, ?_⟩
    · rw [hr]
      simp only [emitIn, hx, h.path]
      rfl
    · intro x hw
      cases hw with
      | leave => exact hl rfl
      | permission => exact hpm _ rfl
      | given h1 h2 => rw [hv _ h1] at h2; cases h2
      | directive _ h2 h3 =>
        cases meant_functional hm h2
        rw [(emitDirective_raises _ _).mpr h3] at hx; cases hx
  | some x =>
    refine .inr ⟨x, ?_, .directive hv hm ((emitDirective_raises _ _).mp hx)⟩
    rw [hr]
    simp only [emitIn, hx]

theorem read_step {f : IdField} {p : List Ev} {st : List Frame} (h : Reflects f p st) (e : Ev) : ReadAs f p st e := by
  cases e with
  | enter file =>
    refine .inl ⟨_, [], rfl, reflects_enter file h, .enter, ?_⟩
    intro x hw
    cases hw with
    | given h1 => cases h1
    | directive _ h2 => cases h2
  | leave =>
    by_cases ho : StaysOpen (p ++ [.leave])
    · obtain ⟨c, c', r, rfl⟩ := (leave_open h).mp ho
      refine .inl ⟨_, [], rfl, reflects_leave h, .leave, ?_⟩
      intro x hw
      cases hw with
      | leave h1 => exact h1 ho
      | given h1 => cases h1
      | directive _ h2 => cases h2
    · refine .inr ⟨.configurationError, ?_, .leave ho⟩
      have hn : ¬ ∃ c c' r, st = c :: c' :: r := fun hh => ho ((leave_open h).mpr hh)
      cases st with
      | nil => rfl
      | cons c r =>
        cases r with
        | nil => rfl
        | cons c' r => exact absurd ⟨c, c', r, rfl⟩ hn
  | permission raw =>
    cases hv : f.valid (f.strip raw) with
    | true =>
      refine .inl ⟨st, [⟨some (.utility (f.strip raw)), 0, includePath p, .define (f.strip raw)⟩], ?_,
        reflects_idle ⟨⟨(fun _ h => nomatch h), (fun h => nomatch h)⟩, (fun _ _ h => nomatch h)⟩ h, .permission, ?_⟩
      · simp only [readEv, hv, h.path]; rfl
      · intro x hw
        cases hw with
        | permission h1 => rw [hv] at h1; cases h1
        | given h1 => cases h1
        | directive _ h2 => cases h2
    | false => exact .inr ⟨.configurationError, by simp [readEv, hv], .permission hv⟩
  | redefine a b =>
    obtain ⟨a1, a2⟩ := readPermission_spec h a
    obtain ⟨b1, b2⟩ := readPermission_spec h b
    cases hva : f.valid (f.strip a) with
    | false => exact .inr ⟨.configurationError, by simp [readEv, a2 hva], .given .from_ hva⟩
    | true =>
      cases hvb : f.valid (f.strip b) with
      | false => exact .inr ⟨.configurationError, by simp [readEv, a1 hva, b2 hvb], .given .to hvb⟩
      | true =>
        refine .inl ⟨_, [], ?_, reflects_redefine a b h, .redefine, ?_⟩
        · simp [readEv, a1 hva, b1 hvb, checksOf, givens]
        · intro x hw
          cases hw with
          | given h1 h2 =>
            cases h1 with
            | from_ => rw [hva] at h2; cases h2
            | to => rw [hvb] at h2; cases h2
          | directive _ h2 => cases h2
  | policy q =>
    refine .inl ⟨st, [⟨some .defaultPolicy, 0, includePath p, .policy q⟩], ?_,
      reflects_idle ⟨⟨(fun _ h => nomatch h), (fun h => nomatch h)⟩, (fun _ _ h => nomatch h)⟩ h, .policy, ?_⟩
    · simp only [readEv, h.path]; rfl
    · intro x hw
      cases hw with
      | given h1 => cases h1
      | directive _ h2 => cases h2
  | cls t sub =>
    have hi : Idle (.cls t sub) := ⟨⟨(fun _ h => nomatch h), (fun h => nomatch h)⟩, (fun _ _ h => nomatch h)⟩
    have hl : Ev.cls t sub ≠ .leave := fun h => nomatch h
    have hpm : ∀ raw, Ev.cls t sub ≠ .permission raw := fun _ h => nomatch h
    cases sub with
    | require r =>
      cases hp : r.permission with
      | none =>
        refine read_directive h hi rfl ?_ (.requireNothing hp) hl hpm (by
          simp [readDirective, hp, checksOf, givens, RawRequire.read])
        intro raw hg
        cases hg with
        | require h1 => rw [hp] at h1; cases h1
      | some raw =>
        obtain ⟨a1, a2⟩ := readPermission_spec h raw
        cases hv : f.valid (f.strip raw) with
        | false => exact .inr ⟨.configurationError, by simp [readEv, readDirective, hp, a2 hv], .given (.require hp) hv⟩
        | true =>
          refine read_directive h hi rfl ?_ (.require hp ((h.stands _ _).mpr rfl)) hl hpm (by
            simp [readDirective, hp, checksOf, givens, a1 hv, RawRequire.read, idVal])
          intro raw' hg
          cases hg with
          | require h1 => rw [hp] at h1; cases h1; exact hv
    | allow l is => exact read_directive h hi rfl (by intro raw hg; cases hg) .allow hl hpm rfl
    | implements is => exact read_directive h hi rfl (by intro raw hg; cases hg) .implements hl hpm rfl
  | mod m sub =>
    have hi : Idle (.mod m sub) := ⟨⟨(fun _ h => nomatch h), (fun h => nomatch h)⟩, (fun _ _ h => nomatch h)⟩
    have hl : Ev.mod m sub ≠ .leave := fun h => nomatch h
    have hpm : ∀ raw, Ev.mod m sub ≠ .permission raw := fun _ h => nomatch h
    cases sub with
    | allow l is => exact read_directive h hi rfl (by intro raw hg; cases hg) .modAllow hl hpm rfl
    | require raw l is =>
      obtain ⟨a1, a2⟩ := readPermission_spec h raw
      cases hv : f.valid (f.strip raw) with
      | false => exact .inr ⟨.configurationError, by simp [readEv, readDirective, a2 hv], .given .modRequire hv⟩
      | true =>
        refine read_directive h hi rfl ?_ (.modRequire ((h.stands _ _).mpr rfl)) hl hpm (by
          simp [readDirective, checksOf, givens, a1 hv, idVal])
        intro raw' hg
        cases hg with
        | modRequire => exact hv

/-! ## Reading all events -/

/-- The actions, event by event. -/
def Parts (f : IdField) (p : List Ev) : List Ev → List (List FAction) → Prop
  | [], parts => parts = []
  | e :: r, parts => ∃ own rest, parts = (checksOf f (includePath p) e ++ own) :: rest ∧ Own f p e own
      ∧ Parts f (p ++ [e]) r rest

/-- The first wrong event. -/
def FirstWrong (f : IdField) (p evs : List Ev) (x : Exn) : Prop :=
  ∃ i e, evs[i]? = some e ∧ Wrong f (p ++ evs.take i) e x
    ∧ ∀ j e', j < i → evs[j]? = some e' → ∀ x', ¬ Wrong f (p ++ evs.take j) e' x'

theorem read_all {f : IdField} {p : List Ev} {st : List Frame} (h : Reflects f p st) (evs : List Ev) :
    (∃ st' parts, readEvs f st evs = .ok (st', parts.flatten) ∧ Reflects f (p ++ evs) st' ∧ Parts f p evs parts
        ∧ ∀ i e, evs[i]? = some e → ∀ x, ¬ Wrong f (p ++ evs.take i) e x)
      ∨ ∃ x, readEvs f st evs = .err x ∧ FirstWrong f p evs x := by
  induction evs generalizing p st with
  | nil => exact .inl ⟨st, [], rfl, by simpa using h, rfl, by simp⟩
  | cons e r ih =>
    rcases read_step h e with ⟨st1, own, h1, h2, h3, h4⟩ | ⟨x, h1, h2⟩
    · rcases ih h2 with ⟨st2, parts, i1, i2, i3, i4⟩ | ⟨x, i1, j, e', i2, i3, i4⟩
      · refine .inl ⟨st2, (checksOf f (includePath p) e ++ own) :: parts, ?_, by simpa using i2, ⟨own, parts, rfl, h3, i3⟩, ?_⟩
        · simp [readEvs, h1, i1]
        · intro i e' hi x
          cases i with
          | zero =>
            simp only [List.getElem?_cons_zero, Option.some.injEq] at hi
            subst hi
            simpa using h4 x
          | succ i =>
            simp only [List.getElem?_cons_succ] at hi
            simpa using i4 i e' hi x
      · refine .inr ⟨x, by simp [readEvs, h1, i1], j + 1, e', by simpa using i2, by simpa using i3, ?_⟩
        intro k e'' hk he x'
        cases k with
        | zero =>
          simp only [List.getElem?_cons_zero, Option.some.injEq] at he
          subst he
          simpa using h4 x'
        | succ k =>
          simp only [List.getElem?_cons_succ] at he
          simpa using i4 k e'' (by omega) he x'
    · exact .inr ⟨x, by simp [readEvs, h1], 0, e, rfl, by simpa using h2, by intro j e' hj; omega⟩

theorem parts_at {f : IdField} {p evs : List Ev} {parts : List (List FAction)} (h : Parts f p evs parts) :
    parts.length = evs.length ∧ ∀ i e, evs[i]? = some e → ∃ own, Own f (p ++ evs.take i) e own
      ∧ parts[i]? = some (checksOf f (includePath (p ++ evs.take i)) e ++ own) := by
  induction evs generalizing p parts with
  | nil => cases h; exact ⟨rfl, by simp⟩
  | cons e r ih =>
    obtain ⟨own, rest, rfl, h1, h2⟩ := h
    obtain ⟨i1, i2⟩ := ih h2
    refine ⟨by simp [i1], fun i e' hi => ?_⟩
    cases i with
    | zero =>
      simp only [List.getElem?_cons_zero, Option.some.injEq] at hi
      subst hi
      exact ⟨own, by simpa using h1, by simp⟩
    | succ i =>
      simp only [List.getElem?_cons_succ] at hi
      obtain ⟨own', j1, j2⟩ := i2 i e' hi
      exact ⟨own', by simpa using j1, by simpa using j2⟩

/-! ## Counting -/

/-- The discriminator of a subject. -/
def discS : Subject → Disc
  | .requirement k false n => .protectName k n
  | .requirement k true n => .protectSetAttribute k n
  | .permission id => .utility id
  | .policy => .defaultPolicy

theorem discS_surj (d : Disc) : ∃ x, discS x = d := by
  cases d with
  | protectName k n => exact ⟨.requirement k false n, rfl⟩
  | protectSetAttribute k n => exact ⟨.requirement k true n, rfl⟩
  | utility id => exact ⟨.permission id, rfl⟩
  | defaultPolicy => exact ⟨.policy, rfl⟩

/-- How many of the actions have the discriminator. -/
def having (d : Disc) (l : List FAction) : Nat := l.countP fun a => a.disc = some d

theorem having_append (d : Disc) (l l' : List FAction) : having d (l ++ l') = having d l + having d l' :=
  List.countP_append

theorem having_checks (d : Disc) (f : IdField) (π : List String) (e : Ev) : having d (checksOf f π e) = 0 := by
  unfold having
  rw [List.countP_eq_zero]
  intro a ha
  unfold checksOf at ha
  obtain ⟨raw, _, ha⟩ := List.mem_flatMap.mp ha
  unfold checkOf at ha
  split at ha
  · cases ha
  · simp only [List.mem_singleton] at ha
    subst ha; simp

/-- How many of the actions have the discriminator. -/
def acting (d : Disc) (l : List Action) : Nat := l.countP fun a => discOf a = some d

theorem having_declared (d : Disc) (π : List String) (l : List Action) :
    having d (l.map (declared π)) = acting d l := by
  unfold having acting
  rw [List.countP_map]; rfl

theorem acting_append (d : Disc) (l l' : List Action) : acting d (l ++ l') = acting d l + acting d l' :=
  List.countP_append

theorem acting_names (d : Disc) (k : Key) (l : List Name) (p : Val) :
    acting d (l.map fun n => .name k n p) = match d with
      | .protectName k' n => if k' = k then l.count n else 0
      | _ => 0 := by
  unfold acting
  rw [List.countP_map]
  cases d with
  | protectName k' n =>
    by_cases hk : k' = k
    · subst hk
      simp only [if_true, List.count_eq_countP]
      congr 1
      funext m
      rw [Bool.eq_iff_iff]
      simp [discOf]
    · simp only [if_neg hk]
      rw [List.countP_eq_zero]
      intro m _
      simp only [Function.comp, discOf, Option.some.injEq, Disc.protectName.injEq, decide_eq_true_eq]
      exact fun h => hk h.1.symm
  | _ =>
    simp only
    rw [List.countP_eq_zero]
    intro m _
    simp [discOf]

theorem acting_setAttrs (d : Disc) (k : Key) (l : List Name) (p : Val) :
    acting d (l.map fun n => .setAttr k n p) = match d with
      | .protectSetAttribute k' n => if k' = k then l.count n else 0
      | _ => 0 := by
  unfold acting
  rw [List.countP_map]
  cases d with
  | protectSetAttribute k' n =>
    by_cases hk : k' = k
    · subst hk
      simp only [if_true, List.count_eq_countP]
      congr 1
      funext m
      rw [Bool.eq_iff_iff]
      simp [discOf]
    · simp only [if_neg hk]
      rw [List.countP_eq_zero]
      intro m _
      simp only [Function.comp, discOf, Option.some.injEq, Disc.protectSetAttribute.injEq, decide_eq_true_eq]
      exact fun h => hk h.1.symm
  | _ =>
    simp only
    rw [List.countP_eq_zero]
    intro m _
    simp [discOf]

theorem acting_provide (d : Disc) (i : Iface) : acting d [.provideInterface i] = 0 := rfl

theorem acting_mimic (d : Disc) (k : Key) (o : Option Key) : acting d (mimicActions k o) = 0 := by
  cases o <;> rfl

theorem acting_implements (d : Disc) (k : Key) (l : List Iface) :
    acting d (l.flatMap fun i => [.classImplements k i, .provideInterface i]) = 0 := by
  unfold acting
  rw [List.countP_eq_zero]
  intro a ha
  obtain ⟨i, _, ha⟩ := List.mem_flatMap.mp ha
  simp only [List.mem_cons, List.not_mem_nil, or_false] at ha
  rcases ha with rfl | rfl <;> simp [discOf]

theorem acting_interfaces (d : Disc) (k : Key) (p : Val) (l : List (Option Iface)) :
    acting d (protectInterfaces k p l) = match d with
      | .protectName k' n => if k' = k then inInterfaces (l.filterMap id) n else 0
      | _ => 0 := by
  induction l with
  | nil => cases d <;> simp [protectInterfaces, acting, inInterfaces]
  | cons o r ih =>
    cases o with
    | none => simpa [protectInterfaces] using ih
    | some i =>
      simp only [protectInterfaces, protectByInterface, acting_append, acting_names, acting_provide, ih]
      cases d with
      | protectName k' n =>
        by_cases hk : k' = k
        · have hc : i.sortedNames.count n = i.keys.count n := (List.mergeSort_perm _ _).count_eq n
          simp [hk, hc, inInterfaces]
        · simp [hk]
      | _ => rfl

theorem acting_schemas (d : Disc) (k : Key) (p : Val) (l : List (Option Iface)) (hl : none ∉ l) :
    acting d (protectSchemas k p l).1 = match d with
      | .protectSetAttribute k' n => if k' = k then inSchemas (l.filterMap id) n else 0
      | _ => 0 := by
  induction l with
  | nil => cases d <;> simp [protectSchemas, acting, inSchemas]
  | cons o r ih =>
    cases o with
    | none => exact absurd (by simp) hl
    | some i =>
      have ih := ih (fun h => hl (by simp [h]))
      simp only [protectSchemas, protectSetSchema, acting_append, acting_setAttrs, acting_provide, ih]
      cases d with
      | protectSetAttribute k' n =>
        by_cases hk : k' = k
        · have hc : (i.sortedNames.filter (writableField i)).count n
              = if i.get? n = some (.field false) then i.keys.count n else 0 := by
            by_cases hw : i.get? n = some (.field false)
            · rw [if_pos hw, List.count_filter ((writable_iff i n).mpr hw)]
              exact (List.mergeSort_perm _ _).count_eq n
            · rw [if_neg hw, List.count_eq_zero]
              intro hm
              exact hw ((writable_iff i n).mp (List.mem_filter.mp hm).2)
          simp [hk, hc, inSchemas]
        · simp [hk]
      | _ => rfl

theorem inInterfaces_pos (is : List Iface) (n : Name) : 0 < inInterfaces is n ↔ ∃ i ∈ is, HasName i n := by
  induction is with
  | nil => simp [inInterfaces]
  | cons i r ih =>
    have : inInterfaces (i :: r) n = i.keys.count n + inInterfaces r n := by simp [inInterfaces]
    have he : (∃ j ∈ i :: r, HasName j n) ↔ HasName i n ∨ ∃ j ∈ r, HasName j n := by simp
    rw [this, he, ← ih, ← mem_keys, ← List.count_pos_iff]
    omega

theorem acting_module (d : Disc) (k : Key) (p : Val) (l : List Name) (is : List Iface) :
    acting d ((directiveNames l is).map fun n => .name k n p) = match d with
      | .protectName k' n => if k' = k then min 1 (l.count n + inInterfaces is n) else 0
      | _ => 0 := by
  rw [acting_names]
  cases d with
  | protectName k' n =>
    obtain ⟨h1, h2⟩ := C39_names l is
    by_cases hk : k' = k
    · simp only [if_pos hk]
      by_cases hm : n ∈ directiveNames l is
      · rw [h1.count, if_pos hm]
        have := (h2 n).mp hm
        rw [← inInterfaces_pos, ← List.count_pos_iff] at this
        omega
      · rw [List.count_eq_zero.mpr hm]
        have : ¬ (n ∈ l ∨ ∃ i ∈ is, HasName i n) := fun h => hm ((h2 n).mpr h)
        rw [← inInterfaces_pos, ← List.count_pos_iff] at this
        omega
    · simp only [if_neg hk]
  | _ => rfl

theorem acting_require (t : String) (r : Require) (h : (emitRequire (.ty t) r).2 = none) (x : Subject) :
    acting (discS x) (emitRequire (.ty t) r).1 = match x with
      | .requirement k w n => if k = .ty t then
          match w with
          | false => r.attributes.count n + inInterfaces (r.interface.filterMap id) n
          | true => r.setAttributes.count n + inSchemas (r.setSchema.filterMap id) n
        else 0
      | _ => 0 := by
  unfold emitRequire at h ⊢
  by_cases hn : Nothing r
  · rw [if_pos ((nothing_iff r).mpr hn)] at h ⊢
    obtain ⟨h1, h2, h3, h4⟩ := hn
    cases hl : r.likeClass with
    | none => rw [hl] at h; simp at h
    | some u =>
      simp only [Option.isSome_some, if_true, acting_mimic, h1, h2, h3, h4]
      cases x with
      | requirement k w n => cases w <;> simp [inInterfaces, inSchemas]
      | _ => rfl
  · rw [if_neg (fun h => hn ((nothing_iff r).mp h))] at h ⊢
    by_cases hp : NoPermission r.permission
    · rw [if_pos ((falsy_iff _).mpr hp)] at h; cases h
    · rw [if_neg (fun h => hp ((falsy_iff _).mp h))] at h ⊢
      simp only [schemas_none] at h
      have hs : none ∉ r.setSchema := by
        intro hs; rw [if_pos hs] at h; cases h
      simp only [acting_append, acting_mimic, acting_interfaces, protectNames, acting_names, protectSetAttributes,
        acting_setAttrs, acting_schemas _ _ _ _ hs]
      cases x with
      | requirement k w n =>
        cases w
        · by_cases hk : k = .ty t
          · simp only [discS, hk, if_true]; omega
          · simp [discS, hk]
        · by_cases hk : k = .ty t
          · simp only [discS, hk, if_true]; omega
          · simp [discS, hk]
      | _ => rfl

theorem own_count {f : IdField} {p : List Ev} {e : Ev} {own : List FAction} (h : Own f p e own) (x : Subject) :
    having (discS x) own = times f e x := by
  cases h with
  | @permission raw =>
    cases x with
    | permission id =>
      by_cases hi : f.strip raw = id <;> simp [having, discS, times, hi]
    | requirement k w n => cases w <;> simp [having, discS, times]
    | policy => simp [having, discS, times]
  | policy =>
    cases x with
    | requirement k w n => cases w <;> simp [having, discS, times]
    | _ => simp [having, discS, times]
  | enter => cases x <;> simp [having, times]
  | leave => cases x <;> simp [having, times]
  | redefine => cases x <;> simp [having, times]
  | @directive _ d hm hx =>
    rw [having_declared]
    cases hm with
    | require => rw [emitDirective, emitSub, acting_require _ _ hx x]; cases x <;> rfl
    | requireNothing => rw [emitDirective, emitSub, acting_require _ _ hx x]; cases x <;> rfl
    | allow =>
      rw [emitDirective, emitSub, acting_require _ _ hx x]
      cases x with
      | requirement k w n => cases w <;> simp [times, inSchemas]
      | _ => rfl
    | implements =>
      rw [emitDirective, emitSub, acting_implements]
      cases x with
      | requirement k w n => cases w <;> rfl
      | _ => rfl
    | modAllow =>
      rw [emitDirective, emitModSub, acting_module]
      cases x with
      | requirement k w n => cases w <;> rfl
      | _ => rfl
    | modRequire =>
      rw [emitDirective, emitModSub, acting_module]
      cases x with
      | requirement k w n => cases w <;> rfl
      | _ => rfl

end ZS.Props
