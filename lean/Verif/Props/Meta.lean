import Verif.Lemmas.Meta
import Verif.Props.Protect

/-!
# C38, C39 The ZCML directives
-/

namespace ZS.Props
open Spec
variable {A : Type}

/-! ## The actions of one directive -/

/-- What an action declares: kind and name. -/
def said : Action → Option (Bool × Name)
  | .name _ n _ => some (false, n)
  | .setAttr _ n _ => some (true, n)
  | _ => none

/-- Some action of the list declares the kind and name. -/
def Said (l : List Action) (w : Bool) (n : Name) : Prop := ∃ a ∈ l, said a = some (w, n)

/-- The action declares the permission on the class, or does not concern permissions. -/
def PlainAct (k : Key) (p : Val) : Action → Prop
  | .name k' _ p' => k' = k ∧ p' = p
  | .setAttr k' _ p' => k' = k ∧ p' = p
  | .mimic _ _ => False
  | _ => True

theorem said_append (l l' : List Action) (w : Bool) (n : Name) : Said (l ++ l') w n ↔ Said l w n ∨ Said l' w n := by
  simp only [Said, List.mem_append, or_and_right, exists_or]

theorem said_cons (a : Action) (l : List Action) (w : Bool) (n : Name) :
    Said (a :: l) w n ↔ said a = some (w, n) ∨ Said l w n := by
  simp [Said]

theorem said_nil (w : Bool) (n : Name) : ¬ Said [] w n := by simp [Said]

theorem actStores_append (l l' : List Action) (σ : Store) : actStores (l ++ l') σ = actStores l' (actStores l σ) := by
  simp [actStores, List.foldl_append]

theorem plainAct_fold (l : List Action) (k : Key) (p : Val) (hl : ∀ a ∈ l, PlainAct k p a) (σ : Store) :
    (∀ k', k' ≠ k → actStores l σ k' = σ k')
    ∧ ∀ w n, (Said l w n → actStores l σ k w n = some (translate p))
      ∧ (¬ Said l w n → actStores l σ k w n = σ k w n) := by
  induction l generalizing σ with
  | nil => exact ⟨fun _ _ => rfl, fun w n => ⟨fun h => absurd h (said_nil w n), fun _ => rfl⟩⟩
  | cons a r ih =>
    obtain ⟨i1, i2⟩ := ih (fun b hb => hl b (by simp [hb])) (actStore a σ)
    have ha := hl a (by simp)
    have hstep : (∀ k', k' ≠ k → actStore a σ k' = σ k')
        ∧ ∀ w n, (said a = some (w, n) → actStore a σ k w n = some (translate p))
          ∧ (said a ≠ some (w, n) → actStore a σ k w n = σ k w n) := by
      cases a with
      | mimic k1 k2 => exact absurd ha id
      | name k1 n1 p1 =>
        obtain ⟨rfl, rfl⟩ := ha
        refine ⟨fun k' hk' => ?_, fun w n => ⟨fun h => ?_, fun h => ?_⟩⟩
        · funext w m; simp only [actStore]; rw [if_neg (fun h => hk' h.1.symm)]
        · simp only [said, Option.some.injEq, Prod.mk.injEq] at h
          simp [actStore, h.1, h.2]
        · simp only [said, ne_eq, Option.some.injEq, Prod.mk.injEq] at h
          simp only [actStore]; rw [if_neg (fun h' => h h'.2)]
      | setAttr k1 n1 p1 =>
        obtain ⟨rfl, rfl⟩ := ha
        refine ⟨fun k' hk' => ?_, fun w n => ⟨fun h => ?_, fun h => ?_⟩⟩
        · funext w m; simp only [actStore]; rw [if_neg (fun h => hk' h.1.symm)]
        · simp only [said, Option.some.injEq, Prod.mk.injEq] at h
          simp [actStore, h.1, h.2]
        · simp only [said, ne_eq, Option.some.injEq, Prod.mk.injEq] at h
          simp only [actStore]; rw [if_neg (fun h' => h h'.2)]
      | classImplements k1 i => exact ⟨fun _ _ => rfl, fun w n => ⟨fun h => by simp [said] at h, fun _ => rfl⟩⟩
      | provideInterface i => exact ⟨fun _ _ => rfl, fun w n => ⟨fun h => by simp [said] at h, fun _ => rfl⟩⟩
    refine ⟨fun k' hk' => (i1 k' hk').trans (hstep.1 k' hk'), fun w n => ⟨fun h => ?_, fun h => ?_⟩⟩
    · show actStores r (actStore a σ) k w n = _
      by_cases hr : Said r w n
      · exact (i2 w n).1 hr
      · rw [(i2 w n).2 hr]
        rw [said_cons] at h
        exact (hstep.2 w n).1 (h.resolve_right hr)
    · show actStores r (actStore a σ) k w n = _
      rw [said_cons] at h
      rw [(i2 w n).2 (fun h' => h (.inr h')), (hstep.2 w n).2 (fun h' => h (.inl h'))]

theorem mem_keys (i : Iface) (n : Name) : n ∈ i.keys ↔ HasName i n := by
  simp [PyDict.keys, HasName]

theorem mem_sortedNames (i : Iface) (n : Name) : n ∈ i.sortedNames ↔ HasName i n := by
  unfold Iface.sortedNames
  rw [(List.mergeSort_perm _ _).mem_iff, mem_keys]

theorem writable_iff (i : Iface) (n : Name) : writableField i n = true ↔ i.get? n = some (.field false) := by
  unfold writableField
  cases h : i.get? n with
  | none => simp
  | some d => cases d <;> simp

theorem said_names (k : Key) (l : List Name) (p : Val) (w : Bool) (n : Name) :
    Said (l.map fun n => .name k n p) w n ↔ w = false ∧ n ∈ l := by
  simp only [Said, List.mem_map]
  constructor
  · rintro ⟨_, ⟨m, hm, rfl⟩, h⟩
    simp only [said, Option.some.injEq, Prod.mk.injEq] at h
    exact ⟨h.1.symm, h.2 ▸ hm⟩
  · rintro ⟨rfl, h⟩
    exact ⟨_, ⟨n, h, rfl⟩, rfl⟩

theorem said_setAttrs (k : Key) (l : List Name) (p : Val) (w : Bool) (n : Name) :
    Said (l.map fun n => .setAttr k n p) w n ↔ w = true ∧ n ∈ l := by
  simp only [Said, List.mem_map]
  constructor
  · rintro ⟨_, ⟨m, hm, rfl⟩, h⟩
    simp only [said, Option.some.injEq, Prod.mk.injEq] at h
    exact ⟨h.1.symm, h.2 ▸ hm⟩
  · rintro ⟨rfl, h⟩
    exact ⟨_, ⟨n, h, rfl⟩, rfl⟩

theorem said_provide (i : Iface) (w : Bool) (n : Name) : ¬ Said [.provideInterface i] w n := by
  simp [Said, said]

theorem plainAct_names (k : Key) (l : List Name) (p : Val) : ∀ a ∈ l.map (fun n => Action.name k n p), PlainAct k p a := by
  intro a ha
  obtain ⟨m, _, rfl⟩ := List.mem_map.mp ha
  exact ⟨rfl, rfl⟩

theorem plainAct_setAttrs (k : Key) (l : List Name) (p : Val) : ∀ a ∈ l.map (fun n => Action.setAttr k n p), PlainAct k p a := by
  intro a ha
  obtain ⟨m, _, rfl⟩ := List.mem_map.mp ha
  exact ⟨rfl, rfl⟩

theorem plainAct_append {k : Key} {p : Val} {l l' : List Action} (h : ∀ a ∈ l, PlainAct k p a) (h' : ∀ a ∈ l', PlainAct k p a) :
    ∀ a ∈ l ++ l', PlainAct k p a := by
  intro a ha
  rcases List.mem_append.mp ha with ha | ha
  · exact h a ha
  · exact h' a ha

theorem plainAct_provide (k : Key) (p : Val) (i : Iface) : ∀ a ∈ [Action.provideInterface i], PlainAct k p a := by
  intro a ha
  simp only [List.mem_singleton] at ha
  subst ha
  trivial

theorem said_interfaces (k : Key) (p : Val) (l : List (Option Iface)) (w : Bool) (n : Name) :
    Said (protectInterfaces k p l) w n ↔ w = false ∧ ∃ i, some i ∈ l ∧ HasName i n := by
  induction l with
  | nil => simp [protectInterfaces, Said]
  | cons o r ih =>
    cases o with
    | none => simp only [protectInterfaces, ih]; simp
    | some i =>
      simp only [protectInterfaces, protectByInterface, said_append, said_names, said_provide, or_false, ih,
        mem_sortedNames]
      constructor
      · rintro (⟨h1, h2⟩ | ⟨h1, j, h2, h3⟩)
        · exact ⟨h1, i, by simp, h2⟩
        · exact ⟨h1, j, by simp [h2], h3⟩
      · rintro ⟨h1, j, h2, h3⟩
        simp only [List.mem_cons, Option.some.injEq] at h2
        rcases h2 with rfl | h2
        · exact .inl ⟨h1, h3⟩
        · exact .inr ⟨h1, j, h2, h3⟩

theorem plainAct_interfaces (k : Key) (p : Val) (l : List (Option Iface)) : ∀ a ∈ protectInterfaces k p l, PlainAct k p a := by
  induction l with
  | nil => intro a ha; cases ha
  | cons o r ih =>
    cases o with
    | none => exact ih
    | some i => exact plainAct_append (plainAct_append (plainAct_names _ _ _) (plainAct_provide _ _ _)) ih

theorem schemas_none (k : Key) (p : Val) (l : List (Option Iface)) :
    (protectSchemas k p l).2 = (if none ∈ l then some .typeError else none) := by
  induction l with
  | nil => rfl
  | cons o r ih =>
    cases o with
    | none => simp [protectSchemas]
    | some i => simp [protectSchemas, ih]

theorem said_schemas (k : Key) (p : Val) (l : List (Option Iface)) (hl : none ∉ l) (w : Bool) (n : Name) :
    Said (protectSchemas k p l).1 w n ↔ w = true ∧ ∃ i, some i ∈ l ∧ i.get? n = some (.field false) := by
  induction l with
  | nil => simp [protectSchemas, Said]
  | cons o r ih =>
    cases o with
    | none => exact absurd (by simp) hl
    | some i =>
      have ih := ih (fun h => hl (by simp [h]))
      simp only [protectSchemas, protectSetSchema, said_append, said_setAttrs, said_provide, or_false, ih,
        List.mem_filter, mem_sortedNames, writable_iff]
      constructor
      · rintro (⟨h1, _, h2⟩ | ⟨h1, j, h2, h3⟩)
        · exact ⟨h1, i, by simp, h2⟩
        · exact ⟨h1, j, by simp [h2], h3⟩
      · rintro ⟨h1, j, h2, h3⟩
        simp only [List.mem_cons, Option.some.injEq] at h2
        rcases h2 with rfl | h2
        · exact .inl ⟨h1, ⟨_, PyDict.mem_of_get? h3⟩, h3⟩
        · exact .inr ⟨h1, j, h2, h3⟩

theorem plainAct_schemas (k : Key) (p : Val) (l : List (Option Iface)) : ∀ a ∈ (protectSchemas k p l).1, PlainAct k p a := by
  induction l with
  | nil => intro a ha; cases ha
  | cons o r ih =>
    cases o with
    | none => intro a ha; cases ha
    | some i => exact plainAct_append (plainAct_append (plainAct_setAttrs _ _ _) (plainAct_provide _ _ _)) ih

/-! ## `_names` -/

theorem unseen_spec (seen l : List Name) :
    (unseen seen l).1.Nodup ∧ (∀ n, n ∈ (unseen seen l).1 ↔ n ∈ l ∧ n ∉ seen)
    ∧ (∀ n, n ∈ (unseen seen l).2 ↔ n ∈ l ∨ n ∈ seen) := by
  induction l generalizing seen with
  | nil => simp [unseen]
  | cons a r ih =>
    unfold unseen
    by_cases h : a ∈ seen
    · simp only [if_pos h]
      obtain ⟨h1, h2, h3⟩ := ih seen
      refine ⟨h1, fun n => ?_, fun n => ?_⟩
      · rw [h2]
        simp only [List.mem_cons]
        constructor
        · rintro ⟨h4, h5⟩; exact ⟨.inr h4, h5⟩
        · rintro ⟨rfl | h4, h5⟩
          · exact absurd h h5
          · exact ⟨h4, h5⟩
      · rw [h3]
        simp only [List.mem_cons]
        constructor
        · rintro (h4 | h4)
          · exact .inl (.inr h4)
          · exact .inr h4
        · rintro ((rfl | h4) | h4)
          · exact .inr h
          · exact .inl h4
          · exact .inr h4
    · simp only [if_neg h]
      obtain ⟨h1, h2, h3⟩ := ih (a :: seen)
      refine ⟨List.nodup_cons.mpr ⟨fun hm => ?_, h1⟩, fun n => ?_, fun n => ?_⟩
      · have := (h2 a).mp hm
        simp at this
      · simp only [List.mem_cons, h2]
        constructor
        · rintro (rfl | ⟨h4, h5⟩)
          · exact ⟨.inl rfl, h⟩
          · exact ⟨.inr h4, fun h6 => h5 (.inr h6)⟩
        · rintro ⟨rfl | h4, h5⟩
          · exact .inl rfl
          · by_cases he : n = a
            · exact .inl he
            · exact .inr ⟨h4, fun h6 => h6.elim he h5⟩
      · rw [h3]
        simp only [List.mem_cons]
        constructor
        · rintro (h4 | rfl | h4)
          · exact .inl (.inr h4)
          · exact .inl (.inl rfl)
          · exact .inr h4
        · rintro ((rfl | h4) | h4)
          · exact .inr (.inl rfl)
          · exact .inl h4
          · exact .inr (.inr h4)

theorem unseenInterfaces_spec (seen : List Name) (l : List Iface) :
    (unseenInterfaces seen l).Nodup
    ∧ (∀ n, n ∈ unseenInterfaces seen l ↔ (∃ i ∈ l, HasName i n) ∧ n ∉ seen) := by
  induction l generalizing seen with
  | nil => simp [unseenInterfaces]
  | cons i r ih =>
    obtain ⟨h1, h2, h3⟩ := unseen_spec seen i.keys
    obtain ⟨i1, i2⟩ := ih (unseen seen i.keys).2
    unfold unseenInterfaces
    refine ⟨List.nodup_append.mpr ⟨h1, i1, fun a ha b hb hab => ?_⟩, fun n => ?_⟩
    · subst hab
      exact ((i2 a).mp hb).2 ((h3 a).mpr (.inl ((h2 a).mp ha).1))
    · simp only [List.mem_append, h2, i2, h3, mem_keys, List.mem_cons, exists_eq_or_imp]
      constructor
      · rintro (⟨h4, h5⟩ | ⟨h4, h5⟩)
        · exact ⟨.inl h4, h5⟩
        · exact ⟨.inr h4, fun h6 => h5 (.inr h6)⟩
      · rintro ⟨h4 | h4, h5⟩
        · exact .inl ⟨h4, h5⟩
        · by_cases h6 : HasName i n
          · exact .inl ⟨h6, h5⟩
          · exact .inr ⟨h4, fun h7 => h7.elim h6 h5⟩

/-- **C39** `_names` yields each listed attribute and each name of the listed interfaces exactly
once, and nothing else. -/
theorem C39_names (attributes : List Name) (interface : List Iface) :
    (directiveNames attributes interface).Nodup
    ∧ ∀ n, n ∈ directiveNames attributes interface ↔ n ∈ attributes ∨ ∃ i ∈ interface, HasName i n := by
  obtain ⟨h1, h2, h3⟩ := unseen_spec [] attributes
  obtain ⟨i1, i2⟩ := unseenInterfaces_spec (unseen [] attributes).2 interface
  unfold directiveNames
  refine ⟨List.nodup_append.mpr ⟨h1, i1, fun a ha b hb hab => ?_⟩, fun n => ?_⟩
  · subst hab
    exact ((i2 a).mp hb).2 ((h3 a).mpr (.inl ((h2 a).mp ha).1))
  · simp only [List.mem_append, h2, i2, h3, List.not_mem_nil, not_false_eq_true, and_true, or_false]
    constructor
    · rintro (h4 | ⟨h4, _⟩)
      · exact .inl h4
      · exact .inr h4
    · rintro (h4 | h4)
      · exact .inl h4
      · by_cases h5 : n ∈ attributes
        · exact .inl h5
        · exact .inr ⟨h4, h5⟩

example : directiveNames ["b", "a", "b"] [[("a", .notField), ("c", .field true)], [("c", .notField), ("d", .notField)]]
    = ["b", "a", "c", "d"] := by decide

/-! ## One directive -/

theorem falsy_iff (p : Val) : falsyPermission p = true ↔ NoPermission p := by
  unfold falsyPermission NoPermission
  cases p <;> simp

theorem nothing_iff (r : Require) :
    (r.interface.isEmpty && r.attributes.isEmpty && r.setAttributes.isEmpty && r.setSchema.isEmpty) = true ↔ Nothing r := by
  simp only [Nothing, Bool.and_eq_true, List.isEmpty_iff]
  constructor
  · rintro ⟨⟨⟨h1, h2⟩, h3⟩, h4⟩; exact ⟨h2, h1, h3, h4⟩
  · rintro ⟨h1, h2, h3, h4⟩; exact ⟨⟨⟨h2, h1⟩, h3⟩, h4⟩

/-- What `require` raises. -/
theorem emitRequire_raises (t : String) (r : Require) (e : Exn) :
    (emitRequire (.ty t) r).2 = some e ↔ Raises (.cls t (.require r)) e := by
  unfold emitRequire
  by_cases hn : Nothing r
  · rw [if_pos ((nothing_iff r).mpr hn)]
    cases hl : r.likeClass with
    | none =>
      simp only [Option.isSome_none, Bool.false_eq_true, if_false, Option.some.injEq]
      constructor
      · rintro rfl; exact .nothing hn hl
      · intro h
        cases h with
        | nothing => rfl
        | noPermission h => exact absurd hn h
        | noSchema _ h => rw [hn.2.2.2] at h; cases h
    | some u =>
      simp only [Option.isSome_some, if_true, reduceCtorEq, false_iff]
      intro h
      cases h with
      | nothing _ h => rw [hl] at h; cases h
      | noPermission h => exact absurd hn h
      | noSchema _ h => rw [hn.2.2.2] at h; cases h
  · rw [if_neg (fun h => hn ((nothing_iff r).mp h))]
    by_cases hp : NoPermission r.permission
    · rw [if_pos ((falsy_iff _).mpr hp)]
      simp only [Option.some.injEq]
      constructor
      · rintro rfl; exact .noPermission hn hp
      · intro h
        cases h with
        | nothing h => exact absurd h hn
        | noPermission => rfl
        | noSchema h => exact absurd hp h
    · rw [if_neg (fun h => hp ((falsy_iff _).mp h))]
      simp only [schemas_none]
      by_cases hs : none ∈ r.setSchema
      · rw [if_pos hs]
        constructor
        · intro h; cases h; exact .noSchema hp hs
        · intro h
          cases h with
          | nothing h => exact absurd h hn
          | noPermission _ h => exact absurd h hp
          | noSchema => rfl
      · rw [if_neg hs]
        simp only [reduceCtorEq, false_iff]
        intro h
        cases h with
        | nothing h => exact absurd h hn
        | noPermission _ h => exact absurd h hp
        | noSchema _ h => exact absurd h hs

theorem publicPermission_ok : ¬ NoPermission publicPermission := by
  rintro (h | ⟨a, h⟩)
  · cases h
  · simp [publicPermission, zopePublic] at h

theorem emitDirective_raises (d : Directive) (e : Exn) : (emitDirective d).2 = some e ↔ Raises d e := by
  cases d with
  | mod m sub =>
    simp only [emitDirective, reduceCtorEq, false_iff]
    intro h; cases h
  | cls t sub =>
    cases sub with
    | require r => exact emitRequire_raises t r e
    | allow l is =>
      simp only [emitDirective, emitSub]
      rw [emitRequire_raises]
      constructor
      · intro h
        cases h with
        | nothing h =>
          obtain ⟨h1, h2, _⟩ := h
          simp only at h1 h2
          subst h1 h2
          exact .allowNothing
        | noPermission _ h => exact absurd h publicPermission_ok
        | noSchema _ h => cases h
      · intro h
        cases h
        exact .nothing ⟨rfl, rfl, rfl, rfl⟩ rfl
    | implements l =>
      simp only [emitDirective, emitSub, reduceCtorEq, false_iff]
      intro h; cases h

/-- The like class of a directive. -/
def likeOf : Directive → Option Key
  | .cls _ (.require r) => r.likeClass
  | _ => none

theorem likeOf_iff (d : Directive) (u : Key) : LikeClass d u ↔ likeOf d = some u := by
  constructor
  · intro h; cases h; assumption
  · intro h
    cases d with
    | mod m sub => cases h
    | cls t sub =>
      cases sub with
      | require r => exact .like h
      | allow => cases h
      | implements => cases h

/-- The actions of a directive: those of `like_class` first, then declarations of one permission,
for the kinds and names the directive declares. -/
theorem emit_actions (d : Directive) (h : (emitDirective d).2 = none) :
    ∃ p l, (emitDirective d).1 = mimicActions (about d) (likeOf d) ++ l ∧ (∀ a ∈ l, PlainAct (about d) p a)
      ∧ (∀ w n, Said l w n ↔ ∃ q, Declares d w n q) ∧ ∀ w n q, Declares d w n q → translate q = translate p := by
  have req : ∀ t r, (emitRequire (.ty t) r).2 = none →
      ∃ l, (emitRequire (.ty t) r).1 = mimicActions (.ty t) r.likeClass ++ l ∧ (∀ a ∈ l, PlainAct (.ty t) r.permission a)
        ∧ ∀ w n, Said l w n ↔ (w = false ∧ (n ∈ r.attributes ∨ ∃ i, some i ∈ r.interface ∧ HasName i n))
          ∨ (w = true ∧ (n ∈ r.setAttributes ∨ ∃ i, some i ∈ r.setSchema ∧ i.get? n = some (.field false))) := by
    intro t r hr
    unfold emitRequire at hr ⊢
    by_cases hn : Nothing r
    · rw [if_pos ((nothing_iff r).mpr hn)] at hr ⊢
      cases hl : r.likeClass with
      | none => rw [hl] at hr; simp at hr
      | some u =>
        refine ⟨[], by simp, by simp, fun w n => ?_⟩
        obtain ⟨h1, h2, h3, h4⟩ := hn
        simp [h1, h2, h3, h4, Said]
    · rw [if_neg (fun h => hn ((nothing_iff r).mp h))] at hr ⊢
      by_cases hp : NoPermission r.permission
      · rw [if_pos ((falsy_iff _).mpr hp)] at hr; cases hr
      · rw [if_neg (fun h => hp ((falsy_iff _).mp h))] at hr ⊢
        simp only [schemas_none] at hr
        have hs : none ∉ r.setSchema := by
          intro hs; rw [if_pos hs] at hr; cases hr
        refine ⟨_, by simp only [List.append_assoc]; rfl, ?_, fun w n => ?_⟩
        · exact plainAct_append (plainAct_interfaces _ _ _) (plainAct_append (plainAct_names _ _ _)
            (plainAct_append (plainAct_setAttrs _ _ _) (plainAct_schemas _ _ _)))
        · simp only [said_append, said_interfaces, protectNames, said_names, protectSetAttributes, said_setAttrs,
            said_schemas _ _ _ hs]
          constructor
          · rintro (⟨h1, h2⟩ | ⟨h1, h2⟩ | ⟨h1, h2⟩ | ⟨h1, h2⟩)
            · exact .inl ⟨h1, .inr h2⟩
            · exact .inl ⟨h1, .inl h2⟩
            · exact .inr ⟨h1, .inl h2⟩
            · exact .inr ⟨h1, .inr h2⟩
          · rintro (⟨h1, h2 | h2⟩ | ⟨h1, h2 | h2⟩)
            · exact .inr (.inl ⟨h1, h2⟩)
            · exact .inl ⟨h1, h2⟩
            · exact .inr (.inr (.inl ⟨h1, h2⟩))
            · exact .inr (.inr (.inr ⟨h1, h2⟩))
  cases d with
  | cls t sub =>
    cases sub with
    | require r =>
      obtain ⟨l, h1, h2, h3⟩ := req t r h
      refine ⟨r.permission, l, h1, h2, fun w n => (h3 w n).trans ⟨?_, ?_⟩, fun w n q hq => by cases hq <;> rfl⟩
      · rintro (⟨rfl, h4 | ⟨i, h4, h5⟩⟩ | ⟨rfl, h4 | ⟨i, h4, h5⟩⟩)
        · exact ⟨_, .attributes h4⟩
        · exact ⟨_, .interface h4 h5⟩
        · exact ⟨_, .setAttributes h4⟩
        · exact ⟨_, .setSchema h4 h5⟩
      · rintro ⟨q, hq⟩
        cases hq with
        | attributes h4 => exact .inl ⟨rfl, .inl h4⟩
        | interface h4 h5 => exact .inl ⟨rfl, .inr ⟨_, h4, h5⟩⟩
        | setAttributes h4 => exact .inr ⟨rfl, .inl h4⟩
        | setSchema h4 h5 => exact .inr ⟨rfl, .inr ⟨_, h4, h5⟩⟩
    | allow l0 is =>
      obtain ⟨l, h1, h2, h3⟩ := req t _ h
      refine ⟨publicPermission, l, h1, h2, fun w n => (h3 w n).trans ⟨?_, ?_⟩, fun w n q hq => ?_⟩
      · rintro (⟨rfl, h4 | ⟨i, h4, h5⟩⟩ | ⟨rfl, h4 | ⟨i, h4, h5⟩⟩)
        · exact ⟨_, .allowAttributes (z := 0) h4⟩
        · exact ⟨_, .allowInterface (z := 0) h4 h5⟩
        · cases h4
        · cases h4
      · rintro ⟨q, hq⟩
        cases hq with
        | allowAttributes h4 => exact .inl ⟨rfl, .inl h4⟩
        | allowInterface h4 h5 => exact .inl ⟨rfl, .inr ⟨_, h4, h5⟩⟩
      · cases hq <;> rfl
    | implements l0 =>
      refine ⟨.none, (emitDirective (.cls t (.implements l0))).1, rfl, ?_, fun w n => ⟨?_, ?_⟩, fun w n q hq => by cases hq⟩
      · intro a ha
        obtain ⟨i, _, hi⟩ := List.mem_flatMap.mp ha
        simp only [List.mem_cons, List.not_mem_nil, or_false] at hi
        rcases hi with rfl | rfl <;> trivial
      · rintro ⟨a, ha, hs⟩
        obtain ⟨i, _, hi⟩ := List.mem_flatMap.mp ha
        simp only [List.mem_cons, List.not_mem_nil, or_false] at hi
        rcases hi with rfl | rfl <;> cases hs
      · rintro ⟨q, hq⟩; cases hq
  | mod m sub =>
    cases sub with
    | allow l0 is =>
      refine ⟨publicPermission, _, rfl, plainAct_names _ _ _, fun w n => ?_, fun w n q hq => by cases hq <;> rfl⟩
      rw [said_names, (C39_names l0 is).2]
      constructor
      · rintro ⟨rfl, h4 | ⟨i, h4, h5⟩⟩
        · exact ⟨_, .modAllowAttributes (z := 0) h4⟩
        · exact ⟨_, .modAllowInterface (z := 0) h4 h5⟩
      · rintro ⟨q, hq⟩
        cases hq with
        | modAllowAttributes h4 => exact ⟨rfl, .inl h4⟩
        | modAllowInterface h4 h5 => exact ⟨rfl, .inr ⟨_, h4, h5⟩⟩
    | require p l0 is =>
      refine ⟨p, _, rfl, plainAct_names _ _ _, fun w n => ?_, fun w n q hq => by cases hq <;> rfl⟩
      rw [said_names, (C39_names l0 is).2]
      constructor
      · rintro ⟨rfl, h4 | ⟨i, h4, h5⟩⟩
        · exact ⟨_, .modAttributes h4⟩
        · exact ⟨_, .modInterface h4 h5⟩
      · rintro ⟨q, hq⟩
        cases hq with
        | modAttributes h4 => exact ⟨rfl, .inl h4⟩
        | modInterface h4 h5 => exact ⟨rfl, .inr ⟨_, h4, h5⟩⟩

theorem translate_ne_none {p : Val} (h : p ≠ .none) : translate p ≠ .none := by
  unfold translate
  split
  · split
    · simp [publicV]
    · simp
  · exact h

theorem means_stored {p : Val} (h : p ≠ .none) (q : Option Val) : Means p q ↔ q = some (translate p) := by
  rw [means_iff]
  have : dropNone (some (translate p)) = some (translate p) := by
    have := translate_ne_none h
    cases hq : translate p <;> simp_all [dropNone]
  rw [this]
  exact eq_comm

/-- The actions of a directive have its effect. -/
theorem emit_effect (d : Directive) (h : (emitDirective d).2 = none) (σ : Store) :
    Effect d σ (actStores (emitDirective d).1 σ) := by
  obtain ⟨p, l, h1, h2, h3, h4⟩ := emit_actions d h
  rw [h1, actStores_append]
  have hm : (∀ k, k ≠ about d → actStores (mimicActions (about d) (likeOf d)) σ k = σ k)
      ∧ (∀ w n, actStores (mimicActions (about d) (likeOf d)) σ (about d) w n
        = match likeOf d with
          | none => σ (about d) w n
          | some u => (σ u w n).or (σ (about d) w n)) := by
    cases likeOf d with
    | none => exact ⟨fun _ _ => rfl, fun _ _ => rfl⟩
    | some u =>
      refine ⟨fun k hk => ?_, fun w n => ?_⟩
      · funext w n
        simp [actStores, mimicActions, actStore, hk]
      · simp [actStores, mimicActions, actStore]
  generalize actStores (mimicActions (about d) (likeOf d)) σ = σ1 at hm
  obtain ⟨f1, f2⟩ := plainAct_fold l (about d) p h2 σ1
  have notSaid : ∀ w n, (∀ q, ¬ Declares d w n q) → actStores l σ1 (about d) w n = σ1 (about d) w n := by
    intro w n hn
    apply (f2 w n).2
    intro hs
    obtain ⟨q, hq⟩ := (h3 w n).mp hs
    exact hn q hq
  refine ⟨fun k hk => (f1 k hk).trans (hm.1 k hk), ?_, ?_, ?_, ?_, ?_⟩
  · intro w n q hq hqn
    rw [means_stored hqn, (f2 w n).1 ((h3 w n).mpr ⟨q, hq⟩), h4 w n q hq]
  · intro w n hq
    rw [(f2 w n).1 ((h3 w n).mpr ⟨_, hq⟩), ← h4 w n _ hq]
    rfl
  · intro hno w n hn
    rw [notSaid w n hn, hm.2 w n]
    cases hl : likeOf d with
    | none => rfl
    | some u => exact absurd ((likeOf_iff d u).mpr hl) (hno u)
  · intro u hu w n q hn hq
    rw [notSaid w n hn, hm.2 w n, (likeOf_iff d u).mp hu]
    simp [hq]
  · intro u hu w n hn hq
    rw [notSaid w n hn, hm.2 w n, (likeOf_iff d u).mp hu]
    simp [hq]

/-! ## Whole configurations -/

/-- **C38** Reading a configuration raises exactly when one of its directives is wrong: the
exception is that of the first such directive, and then nothing has been carried out. -/
theorem C38_raises (l : List Directive) (s : St A) (e : Exn) (l1 l2 : List Directive) (d : Directive)
    (hl : l = l1 ++ d :: l2) (hb : ∀ d' ∈ l1, ∀ e', ¬ Raises d' e') (hd : Raises d e) :
    configure l s = (.err e, s) := by
  have : (emitAll l).2 = some e := by
    subst hl
    induction l1 with
    | nil => simp [emitAll, (emitDirective_raises d e).mpr hd]
    | cons d' r ih =>
      have hn : (emitDirective d').2 = none := by
        cases h : (emitDirective d').2 with
        | none => rfl
        | some e' => exact absurd ((emitDirective_raises d' e').mp h) (hb d' (by simp) e')
      simp only [List.cons_append, emitAll, hn]
      exact ih (fun d'' hd'' => hb d'' (by simp [hd'']))
  unfold configure
  rw [this]
  rfl

theorem emitAll_ok (l : List Directive) (h : ∀ d ∈ l, ∀ e, ¬ Raises d e) :
    (emitAll l).2 = none ∧ (emitAll l).1 = l.flatMap fun d => (emitDirective d).1 := by
  induction l with
  | nil => exact ⟨rfl, rfl⟩
  | cons d r ih =>
    have hn : (emitDirective d).2 = none := by
      cases he : (emitDirective d).2 with
      | none => rfl
      | some e' => exact absurd ((emitDirective_raises d e').mp he) (h d (by simp) e')
    obtain ⟨i1, i2⟩ := ih (fun d' hd' => h d' (by simp [hd']))
    simp only [emitAll, hn, List.flatMap_cons, i1, i2]
    exact ⟨trivial, trivial⟩

theorem actions_targets (d : Directive) (h : (emitDirective d).2 = none) (a : Action) (ha : a ∈ (emitDirective d).1) :
    (∀ k, target a = some k → k = about d) ∧ (∀ k, source a = some k → LikeClass d k) := by
  obtain ⟨p, l, h1, h2, _, _⟩ := emit_actions d h
  rw [h1] at ha
  rcases List.mem_append.mp ha with ha | ha
  · cases hl : likeOf d with
    | none => rw [hl] at ha; cases ha
    | some u =>
      rw [hl] at ha
      simp only [mimicActions, List.mem_singleton] at ha
      subst ha
      refine ⟨fun k hk => by cases hk; rfl, fun k hk => ?_⟩
      cases hk
      exact (likeOf_iff d _).mpr hl
  · have := h2 a ha
    cases a with
    | mimic => exact absurd this id
    | name k n q => exact ⟨fun k' hk' => by cases hk'; exact this.1, fun k' hk' => by cases hk'⟩
    | setAttr k n q => exact ⟨fun k' hk' => by cases hk'; exact this.1, fun k' hk' => by cases hk'⟩
    | classImplements => exact ⟨(fun k' hk' => by cases hk'), (fun k' hk' => by cases hk')⟩
    | provideInterface => exact ⟨(fun k' hk' => by cases hk'), (fun k' hk' => by cases hk')⟩

theorem effects_emitAll (l : List Directive) (h : ∀ d ∈ l, ∀ e, ¬ Raises d e) (σ : Store) :
    Effects l σ (actStores (emitAll l).1 σ) := by
  rw [(emitAll_ok l h).2]
  induction l generalizing σ with
  | nil => exact .nil
  | cons d r ih =>
    have hn : (emitDirective d).2 = none := by
      cases he : (emitDirective d).2 with
      | none => rfl
      | some e' => exact absurd ((emitDirective_raises d e').mp he) (h d (by simp) e')
    rw [List.flatMap_cons, actStores_append]
    exact .cons (emit_effect d hn σ) (ih (fun d' hd' => h d' (by simp [hd'])) _)

/-- The classes and modules of a configuration are unregistered or have `Checker`s, and those it
declares on have dictionaries of their own. -/
def Ready (l : List Directive) (s : St A) : Prop :=
  ∀ d ∈ l, (Dicts s (about d) ∧ Apart s (about d)) ∧ ∀ u, LikeClass d u → Dicts s u

/-- **C38** A configuration none of whose directives is wrong is carried out without exception and
has, one directive after the other, exactly the effect the directives state. -/
theorem C38_effects (l : List Directive) (s : St A) (hh : Heap s) (hr : Ready l s) (h : ∀ d ∈ l, ∀ e, ¬ Raises d e) :
    ∃ s', configure l s = (.ok (), s') ∧ Effects l (storeOf s) (storeOf s') ∧ Heap s' ∧ Ready l s' := by
  have hemit := emitAll_ok l h
  have hmem : ∀ a ∈ (emitAll l).1, ∃ d ∈ l, (∀ k, target a = some k → k = about d) ∧ (∀ k, source a = some k → LikeClass d k) := by
    intro a ha
    rw [hemit.2] at ha
    obtain ⟨d, hd, ha⟩ := List.mem_flatMap.mp ha
    have hn : (emitDirective d).2 = none := by
      cases he : (emitDirective d).2 with
      | none => rfl
      | some e' => exact absurd ((emitDirective_raises d e').mp he) (h d hd e')
    exact ⟨d, hd, actions_targets d hn a ha⟩
  obtain ⟨h1, h2, h3, h4, h5⟩ := actions_run (emitAll l).1 s hh
    (fun a ha k hk => by
      obtain ⟨d, hd, ht, _⟩ := hmem a ha
      rw [ht k hk]; exact (hr d hd).1)
    (fun a ha k hk => by
      obtain ⟨d, hd, _, hs⟩ := hmem a ha
      exact (hr d hd).2 k (hs k hk))
  refine ⟨(runActions (emitAll l).1 s).2, ?_, ?_, h2, ?_⟩
  · unfold configure
    rw [hemit.1]
    exact Prod.ext h1 rfl
  · rw [h5]
    exact effects_emitAll l h _
  · intro d hd
    obtain ⟨⟨r1, r2⟩, r3⟩ := hr d hd
    exact ⟨⟨h4 _ r1, h3 _ r2⟩, fun u hu => h4 _ (r3 u hu)⟩

theorem Effects.split {l1 l2 : List Directive} {σ σ' : Store} (h : Effects (l1 ++ l2) σ σ') :
    ∃ σ1, Effects l1 σ σ1 ∧ Effects l2 σ1 σ' := by
  induction l1 generalizing σ with
  | nil => exact ⟨σ, .nil, h⟩
  | cons d r ih =>
    cases h with
    | cons h1 h2 =>
      obtain ⟨σ1, i1, i2⟩ := ih h2
      exact ⟨σ1, .cons h1 i1, i2⟩

/-- The directive has nothing to say about a class, kind and name. -/
def Silent (d : Directive) (k : Key) (w : Bool) (n : Name) : Prop :=
  about d = k → (∀ p, ¬ Declares d w n p) ∧ ∀ u, ¬ LikeClass d u

theorem Effects.silent {l : List Directive} {σ σ' : Store} (h : Effects l σ σ') {k : Key} {w : Bool} {n : Name}
    (hs : ∀ d ∈ l, Silent d k w n) : σ' k w n = σ k w n := by
  induction h with
  | nil => rfl
  | cons h1 _ ih =>
    rename_i d l σ σ1 σ2 h2
    rw [ih (fun d' hd' => hs d' (by simp [hd']))]
    by_cases hk : about d = k
    · obtain ⟨s1, s2⟩ := hs d (by simp) hk
      subst hk
      exact h1.same s2 w n s1
    · rw [h1.frame k (Ne.symm hk)]

/-- **C38** After a configuration, what a class or module requires for reading (writing) a name is
what the last directive that has anything to say about it means, if that declares a permission. -/
theorem C38_last (l l1 l2 : List Directive) (s : St A) (hh : Heap s) (hr : Ready l s)
    (h : ∀ d ∈ l, ∀ e, ¬ Raises d e) (d : Directive) (w : Bool) (n : Name) (p : Val) (hl : l = l1 ++ d :: l2)
    (hd : Declares d w n p) (hlast : ∀ d' ∈ l2, Silent d' (about d) w n) :
    ∃ s', configure l s = (.ok (), s') ∧ Means p (required w s' (about d) n) := by
  obtain ⟨s', h1, h2, _, _⟩ := C38_effects l s hh hr h
  refine ⟨s', h1, ?_⟩
  rw [hl] at h2
  obtain ⟨σ1, _, h3⟩ := Effects.split h2
  cases h3 with
  | cons h4 h5 =>
    rename_i σ2
    have hσ : storeOf s' (about d) w n = σ2 (about d) w n := Effects.silent h5 hlast
    have hst : stored w s' (about d) n = σ2 (about d) w n := hσ
    rw [required_eq, hst]
    by_cases hp : p = .none
    · subst hp
      rw [h4.declaredNone w n hd]
      exact .isNone
    · have hm := (means_stored hp _).mp (h4.declared w n p hd hp)
      rw [hm, means_iff]

/-- **C38** What no directive has anything to say about is as before, in particular all other
classes and modules. -/
theorem C38_unmentioned (l : List Directive) (s : St A) (hh : Heap s) (hr : Ready l s)
    (h : ∀ d ∈ l, ∀ e, ¬ Raises d e) (k : Key) (w : Bool) (n : Name) (hs : ∀ d ∈ l, Silent d k w n) :
    ∃ s', configure l s = (.ok (), s') ∧ required w s' k n = required w s k n := by
  obtain ⟨s', h1, h2, _, _⟩ := C38_effects l s hh hr h
  refine ⟨s', h1, ?_⟩
  have : stored w s' k n = stored w s k n := Effects.silent h2 hs
  rw [required_eq, required_eq, this]

/-- **C38** `like_class` alone: the class requires what the other class requires at that point,
and what it required itself where the other class has nothing. -/
theorem C38_like (l1 : List Directive) (s : St A) (hh : Heap s) (t : String) (u : Key) (r : Require)
    (hn : Nothing r) (hu : r.likeClass = some u)
    (hr : Ready (l1 ++ [.cls t (.require r)]) s) (h : ∀ d ∈ l1, ∀ e, ¬ Raises d e) (w : Bool) (n : Name) :
    ∃ s1 s2, configure l1 s = (.ok (), s1) ∧ configure (l1 ++ [.cls t (.require r)]) s = (.ok (), s2)
      ∧ stored w s2 (.ty t) n = (stored w s1 u n).or (stored w s1 (.ty t) n) := by
  have hok : ∀ e, ¬ Raises (.cls t (.require r)) e := by
    intro e he
    cases he with
    | nothing _ h => rw [hu] at h; cases h
    | noPermission h => exact absurd hn h
    | noSchema _ h => rw [hn.2.2.2] at h; cases h
  have hall : ∀ d ∈ l1 ++ [.cls t (.require r)], ∀ e, ¬ Raises d e := by
    intro d hd
    rcases List.mem_append.mp hd with hd | hd
    · exact h d hd
    · simp only [List.mem_singleton] at hd
      subst hd
      exact hok
  have hr1 : Ready l1 s := fun d hd => hr d (by simp [hd])
  obtain ⟨s1, a1, _, _, _⟩ := C38_effects l1 s hh hr1 h
  obtain ⟨s2, b1, _, _, _⟩ := C38_effects _ s hh hr hall
  -- the second configuration is the first one followed by one more directive
  have e1 := (emitAll_ok l1 h)
  have e2 := (emitAll_ok _ hall)
  have hst1 : storeOf s1 = actStores (emitAll l1).1 (storeOf s) := by
    have := (actions_run (emitAll l1).1 s hh ?_ ?_).2.2.2.2
    · have hc : configure l1 s = runActions (emitAll l1).1 s := by unfold configure; rw [e1.1]
      rw [← hc, a1] at this
      exact this
    · intro a ha k hk
      rw [e1.2] at ha
      obtain ⟨d, hd, ha⟩ := List.mem_flatMap.mp ha
      have hnn : (emitDirective d).2 = none := by
        cases he : (emitDirective d).2 with
        | none => rfl
        | some e' => exact absurd ((emitDirective_raises d e').mp he) (h d hd e')
      rw [(actions_targets d hnn a ha).1 k hk]
      exact (hr1 d hd).1
    · intro a ha k hk
      rw [e1.2] at ha
      obtain ⟨d, hd, ha⟩ := List.mem_flatMap.mp ha
      have hnn : (emitDirective d).2 = none := by
        cases he : (emitDirective d).2 with
        | none => rfl
        | some e' => exact absurd ((emitDirective_raises d e').mp he) (h d hd e')
      exact (hr1 d hd).2 k ((actions_targets d hnn a ha).2 k hk)
  have hst2 : storeOf s2 = actStores (emitAll (l1 ++ [.cls t (.require r)])).1 (storeOf s) := by
    have := (actions_run (emitAll (l1 ++ [.cls t (.require r)])).1 s hh ?_ ?_).2.2.2.2
    · have hc : configure (l1 ++ [.cls t (.require r)]) s = runActions (emitAll (l1 ++ [.cls t (.require r)])).1 s := by
        unfold configure; rw [e2.1]
      rw [← hc, b1] at this
      exact this
    · intro a ha k hk
      rw [e2.2] at ha
      obtain ⟨d, hd, ha⟩ := List.mem_flatMap.mp ha
      have hnn : (emitDirective d).2 = none := by
        cases he : (emitDirective d).2 with
        | none => rfl
        | some e' => exact absurd ((emitDirective_raises d e').mp he) (hall d hd e')
      rw [(actions_targets d hnn a ha).1 k hk]
      exact (hr d hd).1
    · intro a ha k hk
      rw [e2.2] at ha
      obtain ⟨d, hd, ha⟩ := List.mem_flatMap.mp ha
      have hnn : (emitDirective d).2 = none := by
        cases he : (emitDirective d).2 with
        | none => rfl
        | some e' => exact absurd ((emitDirective_raises d e').mp he) (hall d hd e')
      exact (hr d hd).2 k ((actions_targets d hnn a ha).2 k hk)
  refine ⟨s1, s2, a1, b1, ?_⟩
  have hnn : (emitDirective (.cls t (.require r))).2 = none := by
    cases he : (emitDirective (.cls t (.require r))).2 with
    | none => rfl
    | some e' => exact absurd ((emitDirective_raises _ e').mp he) (hok e')
  have heff := emit_effect (.cls t (.require r)) hnn (storeOf s1)
  have hσ : storeOf s2 = actStores (emitDirective (.cls t (.require r))).1 (storeOf s1) := by
    rw [hst2, hst1, e2.2, e1.2, List.flatMap_append, actStores_append]
    simp
  rw [← hσ] at heff
  have hnd : ∀ p, ¬ Declares (.cls t (.require r)) w n p := by
    intro p hp
    obtain ⟨n1, n2, n3, n4⟩ := hn
    cases hp with
    | attributes h => rw [n1] at h; cases h
    | interface h => rw [n2] at h; cases h
    | setAttributes h => rw [n3] at h; cases h
    | setSchema h => rw [n4] at h; cases h
  show storeOf s2 (.ty t) w n = _
  cases hu' : stored w s1 u n with
  | none => exact heff.likeNone u (.like hu) w n hnd hu'
  | some q => exact heff.likeSome u (.like hu) w n q hnd hu'

/-- **C38** The order of directives does not matter as long as no two of them declare the same
kind and name of the same class (zope.configuration reports such declarations as conflicts) and
none uses `like_class`. -/
theorem C38_order (l l' : List Directive) (s : St A) (hp : l.Perm l') (hh : Heap s) (hr : Ready l s)
    (h : ∀ d ∈ l, ∀ e, ¬ Raises d e) (hlike : ∀ d ∈ l, ∀ u, ¬ LikeClass d u)
    (hdist : l.Pairwise fun d d' => about d = about d' → ∀ w n p p', Declares d w n p → ¬ Declares d' w n p') :
    ∃ s1 s2, configure l s = (.ok (), s1) ∧ configure l' s = (.ok (), s2)
      ∧ ∀ k w n, required w s1 k n = required w s2 k n := by
  have hr' : Ready l' s := fun d hd => hr d (hp.mem_iff.mpr hd)
  have h' : ∀ d ∈ l', ∀ e, ¬ Raises d e := fun d hd => h d (hp.mem_iff.mpr hd)
  have hlike' : ∀ d ∈ l', ∀ u, ¬ LikeClass d u := fun d hd => hlike d (hp.mem_iff.mpr hd)
  have hdist' : l'.Pairwise fun d d' => about d = about d' → ∀ w n p p', Declares d w n p → ¬ Declares d' w n p' := by
    refine (hp.pairwise_iff ?_).mp hdist
    intro d d' hdd he w n p p' h1 h2
    exact hdd he.symm w n p' p h2 h1
  obtain ⟨s1, a1, _⟩ := C38_effects l s hh hr h
  obtain ⟨s2, b1, _⟩ := C38_effects l' s hh hr' h'
  refine ⟨s1, s2, a1, b1, fun k w n => ?_⟩
  have later : ∀ {l0 l1 l2 : List Directive} {d : Directive} {q : Val}, l0 = l1 ++ d :: l2 →
      (∀ d ∈ l0, ∀ u, ¬ LikeClass d u) →
      (l0.Pairwise fun d d' => about d = about d' → ∀ w n p p', Declares d w n p → ¬ Declares d' w n p') →
      Declares d w n q → ∀ d' ∈ l2, Silent d' (about d) w n := by
    intro l0 l1 l2 d q he hl hd hq d' hd' hab
    subst he
    refine ⟨fun p hpd => ?_, hl d' (by simp [hd'])⟩
    have := (List.pairwise_append.mp hd).2.1
    exact (List.pairwise_cons.mp this).1 d' hd' hab.symm w n q p hq hpd
  by_cases hex : ∃ d ∈ l, about d = k ∧ ∃ p, Declares d w n p
  · obtain ⟨d, hd, rfl, p, hdp⟩ := hex
    obtain ⟨x1, x2, hx⟩ := List.append_of_mem hd
    obtain ⟨y1, y2, hy⟩ := List.append_of_mem (hp.mem_iff.mp hd)
    obtain ⟨s1', c1, m1⟩ := C38_last l x1 x2 s hh hr h d w n p hx hdp (later hx hlike hdist hdp)
    obtain ⟨s2', c2, m2⟩ := C38_last l' y1 y2 s hh hr' h' d w n p hy hdp (later hy hlike' hdist' hdp)
    rw [a1] at c1; cases c1
    rw [b1] at c2; cases c2
    rw [← (means_iff p _).mp m1, ← (means_iff p _).mp m2]
  · have hs : ∀ d ∈ l, Silent d k w n := fun d hd hab => ⟨fun p hpd => hex ⟨d, hd, hab, p, hpd⟩, hlike d hd⟩
    have hs' : ∀ d ∈ l', Silent d k w n := fun d hd => hs d (hp.mem_iff.mpr hd)
    obtain ⟨s1', c1, m1⟩ := C38_unmentioned l s hh hr h k w n hs
    obtain ⟨s2', c2, m2⟩ := C38_unmentioned l' s hh hr' h' k w n hs'
    rw [a1] at c1; cases c1
    rw [b1] at c2; cases c2
    rw [m1, m2]

/-! ## C39 -/

/-- **C39** After any configuration, a module requires for reading a name what the last module
directive that lists the name says, whether as attribute or through an interface. -/
theorem C39_module (l l1 l2 : List Directive) (s : St A) (hh : Heap s) (hr : Ready l s)
    (h : ∀ d ∈ l, ∀ e, ¬ Raises d e) (m : String) (p : Val) (attributes : List Name) (interface : List Iface) (n : Name)
    (hl : l = l1 ++ .mod m (.require p attributes interface) :: l2)
    (hn : n ∈ attributes ∨ ∃ i ∈ interface, HasName i n)
    (hlast : ∀ sub, .mod m sub ∈ l2 → ∀ q, ¬ Declares (.mod m sub) false n q) :
    ∃ s', configure l s = (.ok (), s') ∧ Means p (required false s' (.mod m) n) := by
  have hd : Declares (.mod m (.require p attributes interface)) false n p := by
    rcases hn with hn | ⟨i, hi, hn⟩
    · exact .modAttributes hn
    · exact .modInterface hi hn
  refine C38_last l l1 l2 s hh hr h _ false n p hl hd ?_
  intro d' hd' hab
  cases d' with
  | cls t sub => cases hab
  | mod m' sub =>
    cases hab
    exact ⟨fun q => hlast sub hd' q, fun u hu => by cases hu⟩

/-- **C39** `allow` on a module makes the names public. -/
theorem C39_module_allow (l l1 l2 : List Directive) (s : St A) (hh : Heap s) (hr : Ready l s)
    (h : ∀ d ∈ l, ∀ e, ¬ Raises d e) (m : String) (attributes : List Name) (interface : List Iface) (n : Name)
    (hl : l = l1 ++ .mod m (.allow attributes interface) :: l2)
    (hn : n ∈ attributes ∨ ∃ i ∈ interface, HasName i n)
    (hlast : ∀ sub, .mod m sub ∈ l2 → ∀ q, ¬ Declares (.mod m sub) false n q) :
    ∃ s', configure l s = (.ok (), s') ∧ required false s' (.mod m) n = some publicV := by
  have hd : Declares (.mod m (.allow attributes interface)) false n (.str 0 "zope.Public") := by
    rcases hn with hn | ⟨i, hi, hn⟩
    · exact .modAllowAttributes hn
    · exact .modAllowInterface hi hn
  obtain ⟨s', h1, h2⟩ := C38_last l l1 l2 s hh hr h _ false n _ hl hd (by
    intro d' hd' hab
    cases d' with
    | cls t sub => cases hab
    | mod m' sub =>
      cases hab
      exact ⟨fun q => hlast sub hd' q, fun u hu => by cases hu⟩)
  refine ⟨s', h1, ?_⟩
  generalize hg : required false s' (about (.mod m (.allow attributes interface))) n = q at h2
  have hk : required false s' (.mod m) n = q := hg
  rw [hk]
  cases h2 with
  | isPublic => rfl
  | other _ h3 => exact absurd rfl (h3 0)

/-- **C39** Names no module directive lists keep their requirement, and what is required for
writing never changes. -/
theorem C39_unlisted (l : List Directive) (s : St A) (hh : Heap s) (hr : Ready l s)
    (h : ∀ d ∈ l, ∀ e, ¬ Raises d e) (m : String) (w : Bool) (n : Name)
    (hn : w = true ∨ ∀ sub, .mod m sub ∈ l → ∀ q, ¬ Declares (.mod m sub) false n q) :
    ∃ s', configure l s = (.ok (), s') ∧ required w s' (.mod m) n = required w s (.mod m) n := by
  refine C38_unmentioned l s hh hr h (.mod m) w n ?_
  intro d hd hab
  cases d with
  | cls t sub => cases hab
  | mod m' sub =>
    cases hab
    refine ⟨fun q hq => ?_, fun u hu => by cases hu⟩
    cases w with
    | true => cases hq
    | false =>
      rcases hn with hn | hn
      · cases hn
      · exact hn sub hd q hq

/-- A configuration with everything: a class protected through attributes, interfaces and
schemas, one like it, and a module. -/
def sampleConfig : List Directive :=
  [.cls "Acct" (.require ⟨Ex.view, ["balance"], [some [("owner", .field false), ("audit", .notField)], none], none,
      ["balance"], [some [("owner", .field false), ("number", .field true), ("audit", .notField)]]⟩),
   .cls "Acct" (.allow ["name"] []),
   .cls "Sub" (.require ⟨.none, [], [], some (.ty "Acct"), [], []⟩),
   .cls "Sub" (.require ⟨Ex.edit, ["balance"], [], none, [], []⟩),
   .mod "bank" (.require Ex.view ["open"] [[("close", .notField)]]),
   .mod "bank" (.allow ["open"] [])]

/-- The hypotheses of the theorems above hold for it, and what is required afterwards. -/
example : Ready sampleConfig Ex.s0 ∧ (∀ d ∈ sampleConfig, ∀ e, ¬ Raises d e) := by
  constructor
  · intro d hd
    have hn : ∀ k, k ∈ [Key.ty "Acct", .ty "Sub", .mod "bank"] → Ex.s0.reg.get? k = none := by decide
    have hk : about d ∈ [Key.ty "Acct", .ty "Sub", .mod "bank"] := by
      simp only [sampleConfig, List.mem_cons, List.not_mem_nil, or_false] at hd
      rcases hd with rfl | rfl | rfl | rfl | rfl | rfl <;> simp [about]
    refine ⟨⟨fun c hc => ?_, fun c g st hc => ?_⟩, fun u hu c hc => ?_⟩
    · rw [hn _ hk] at hc; cases hc
    · rw [hn _ hk] at hc; cases hc
    · have : u = .ty "Acct" := by
        simp only [sampleConfig, List.mem_cons, List.not_mem_nil, or_false] at hd
        rcases hd with rfl | rfl | rfl | rfl | rfl | rfl <;> cases hu <;> simp_all
      subst this
      rw [hn _ (by simp)] at hc; cases hc
  · intro d hd e he
    have hall : ∀ d ∈ sampleConfig, (emitDirective d).2 = none := by decide
    have := (emitDirective_raises d e).mpr he
    rw [hall d hd] at this
    cases this

theorem sorted_sample2 (a b : Descr) : Iface.sortedNames [("owner", a), ("audit", b)] = ["audit", "owner"] := by
  simp [Iface.sortedNames, PyDict.keys, List.mergeSort, List.MergeSort.Internal.splitInTwo]

theorem sorted_sample3 (a b c : Descr) :
    Iface.sortedNames [("owner", a), ("number", b), ("audit", c)] = ["audit", "number", "owner"] := by
  simp [Iface.sortedNames, PyDict.keys, List.mergeSort, List.MergeSort.Internal.splitInTwo]

theorem sample_actions : (configure sampleConfig : M Unit Unit) = runActions
    [.name (.ty "Acct") "audit" Ex.view, .name (.ty "Acct") "owner" Ex.view,
     .provideInterface [("owner", .field false), ("audit", .notField)], .name (.ty "Acct") "balance" Ex.view,
     .setAttr (.ty "Acct") "balance" Ex.view, .setAttr (.ty "Acct") "owner" Ex.view,
     .provideInterface [("owner", .field false), ("number", .field true), ("audit", .notField)],
     .name (.ty "Acct") "name" publicPermission, .mimic (.ty "Sub") (.ty "Acct"), .name (.ty "Sub") "balance" Ex.edit,
     .name (.mod "bank") "open" Ex.view, .name (.mod "bank") "close" Ex.view,
     .name (.mod "bank") "open" publicPermission] := by
  have h1 : (emitAll sampleConfig).2 = none := by decide
  unfold configure
  rw [h1]
  simp [sampleConfig, emitAll, emitDirective, emitSub, emitRequire, emitModSub, protectInterfaces, protectByInterface,
    protectSchemas, protectSetSchema, sorted_sample2, sorted_sample3, protectNames, protectSetAttributes, mimicActions,
    falsyPermission, Ex.view, Ex.edit, publicPermission, zopePublic, writableField, PyDict.get?, directiveNames, unseen,
    unseenInterfaces, PyDict.keys]

example :
    let s := (configure sampleConfig Ex.s0).2
    required false s (.ty "Acct") "balance" = some Ex.view
    ∧ required false s (.ty "Acct") "audit" = some Ex.view
    ∧ required true s (.ty "Acct") "owner" = some Ex.view
    ∧ required true s (.ty "Acct") "number" = none
    ∧ required false s (.ty "Acct") "name" = some publicV
    ∧ required false s (.ty "Sub") "balance" = some Ex.edit
    ∧ required true s (.ty "Sub") "owner" = some Ex.view
    ∧ required false s (.mod "bank") "open" = some publicV
    ∧ required false s (.mod "bank") "close" = some Ex.view
    ∧ required true s (.mod "bank") "close" = none := by
  rw [sample_actions]
  refine ⟨?_, ?_, ?_, ?_, ?_, ?_, ?_, ?_, ?_, ?_⟩ <;> decide

/-- Wrong directives. -/
example : Raises (.cls "Acct" (.require ⟨.str 3 "", ["balance"], [], some (.ty "Sub"), [], []⟩)) .configurationError
    ∧ Raises (.cls "Acct" (.require ⟨Ex.view, [], [], none, [], []⟩)) .configurationError
    ∧ (configure [.cls "Acct" (.allow ["name"] []), .cls "Acct" (.require ⟨Ex.view, [], [], none, [], []⟩)] Ex.s0).2.reg
        = Ex.s0.reg := by
  refine ⟨.noPermission (fun h => by cases h.1) (.inr ⟨3, rfl⟩), .nothing ⟨rfl, rfl, rfl, rfl⟩ rfl, rfl⟩

/-! ## C36 for classes that have a checker already -/

/-- **C36** `protectLikeUnto(C, D)` for a class `C` that is unregistered or has dictionaries of its
own: the entries of `D` are added to those of `C`, overriding them, and nothing else changes.  This
includes `D = C`, which changes nothing. -/
theorem C36_like_unto_registered (s : St A) (hh : Heap s) (k kl : Key) (hk : Dicts s k) (ha : Apart s k) (hl : Dicts s kl) :
    ∃ s', protectLikeUnto (keyVal k) (keyVal kl) s = (.ok (), s')
      ∧ (∀ w n q, stored w s kl n = some q → stored w s' k n = some q)
      ∧ (∀ w n, stored w s kl n = none → stored w s' k n = stored w s k n)
      ∧ (∀ w k' n, k' ≠ k → stored w s' k' n = stored w s k' n)
      ∧ Heap s' ∧ Apart s' k ∧ Dicts s' k := by
  obtain ⟨h1, h2, h3, h4, h5⟩ := like_step s hh k kl hk ha hl
  refine ⟨_, Prod.ext h1 rfl, fun w n q hq => ?_, fun w n hq => ?_, fun w k' n hne => ?_, h2, h3 k ha, h4 k hk⟩
  · rw [h5, if_pos rfl, hq]; rfl
  · rw [h5, if_pos rfl, hq]; rfl
  · rw [h5, if_neg hne]

/-- A class with a declaration that is overridden, one that is kept and one that is new. -/
example :
    let s := afterDecl [⟨.ty "C", false, "a", Ex.view⟩, ⟨.ty "C", false, "b", Ex.view⟩, ⟨.ty "D", false, "a", Ex.edit⟩,
      ⟨.ty "D", true, "c", Ex.edit⟩] Ex.s0
    let s' := (protectLikeUnto (.type "C") (.type "D") s).2
    stored false s' (.ty "C") "a" = some Ex.edit ∧ stored false s' (.ty "C") "b" = some Ex.view
    ∧ stored true s' (.ty "C") "c" = some Ex.edit ∧ stored true s' (.ty "D") "a" = none := by decide

/-! ## C37 in full -/

/-- The dictionary a class or module has for reading (`false`) or writing (`true`). -/
def dictOf (s : St A) (k : Key) (w : Bool) : Option Nat :=
  match s.reg.get? k with
  | some c => (checkerDicts c).map fun gs => if w then gs.2 else gs.1
  | none => none

theorem stored_dictOf (w : Bool) (s : St A) (k : Key) (n : Name) :
    stored w s k n = match dictOf s k w with
      | some i => (s.dicts i).get? n
      | none => none := by
  unfold stored dictOf
  cases s.reg.get? k with
  | none => rfl
  | some c =>
    simp only
    cases checkerDicts c with
    | none => rfl
    | some gs => rfl

/-- **C37** Exactly what a declaration changes, whatever the registry: the requirement of the
declared name, for the class declared on and for all classes that have the same dictionary as it. On
a class whose registration is not a `Checker` it raises and changes nothing. -/
theorem C37_exact (d : Decl) (s : St A) (hh : Heap s) :
    ((∃ c, s.reg.get? d.key = some c ∧ checkerDicts c = none) →
      (∃ e, (runDecl d s).1 = .err e) ∧ ∀ w k n, required w (runDecl d s).2 k n = required w s k n)
    ∧ (Dicts s d.key → (runDecl d s).1 = .ok ()
      ∧ ∀ w k n,
        (n = d.name ∧ ((k = d.key ∧ w = d.write) ∨ (∃ i, dictOf s k w = some i ∧ dictOf s d.key d.write = some i)) →
          Means d.perm (required w (runDecl d s).2 k n))
        ∧ (¬ (n = d.name ∧ ((k = d.key ∧ w = d.write) ∨ (∃ i, dictOf s k w = some i ∧ dictOf s d.key d.write = some i))) →
          required w (runDecl d s).2 k n = required w s k n)) := by
  constructor
  · rintro ⟨c, hc, hd⟩
    constructor
    · rw [runDecl_eq]
      by_cases hn : c = .none
      · subst hn
        obtain ⟨e, s', h1, _⟩ := getOrCreate_none s d.key hc
        exact ⟨e, by rw [declare_err d.write s s' (keyVal d.key) d.name d.perm e h1]⟩
      · obtain ⟨e, he⟩ := declare_bad d.write s s (keyVal d.key) d.name d.perm c (getOrCreate_old s d.key c hc hn) hd
        exact ⟨e, by rw [he]⟩
    · intro w k n
      rw [required_eq, required_eq, runDecl_eq,
        (declare_step d.write s hh d.key d.name d.perm).2.2.1 ⟨c, hc, hd⟩ w k n]
  · intro hk
    obtain ⟨c, g, st, s1, hg, hr1, hd1, hh1, _, hs1, hreg1, _⟩ := getOrCreate_dicts s hh d.key hk
    rw [runDecl_eq, declare_ok d.write s s1 (keyVal d.key) d.name d.perm c g st hg hd1]
    refine ⟨rfl, fun w k n => ?_⟩
    -- the dictionary written
    have hdk : dictOf s1 d.key d.write = some (side d.write g st) := by
      simp [dictOf, hr1, hd1, side]
    have key : stored w { s1 with dicts := fun i => if i = side d.write g st then
          (s1.dicts (side d.write g st)).set d.name (translate d.perm) else s1.dicts i } k n
        = if n = d.name ∧ dictOf s1 k w = some (side d.write g st) then some (translate d.perm) else stored w s k n := by
      rw [← hs1, stored_dictOf, stored_dictOf w s1]
      have he : dictOf { s1 with dicts := fun i => if i = side d.write g st then
          (s1.dicts (side d.write g st)).set d.name (translate d.perm) else s1.dicts i } k w = dictOf s1 k w := rfl
      rw [he]
      cases hi : dictOf s1 k w with
      | none => simp
      | some i =>
        simp only [Option.some.injEq]
        by_cases hii : i = side d.write g st
        · subst hii
          simp only [if_true, PyDict.get?_set, and_true]
          by_cases hn : d.name = n
          · simp [hn]
          · rw [if_neg hn, if_neg (Ne.symm hn)]
        · rw [if_neg hii, if_neg (fun h => hii h.2)]
    -- sharing before and after the class got its checker
    have share : dictOf s1 k w = some (side d.write g st) ↔
        ((k = d.key ∧ w = d.write) ∨ ∃ i, dictOf s k w = some i ∧ dictOf s d.key d.write = some i) := by
      cases hc : s.reg.get? d.key with
      | some c0 =>
        have hcd := hk c0 hc
        have hn0 : c0 ≠ .none := by rintro rfl; exact hcd rfl
        have := getOrCreate_old s d.key c0 hc hn0
        rw [hg] at this
        cases this
        constructor
        · intro h; exact .inr ⟨_, h, hdk⟩
        · rintro (⟨rfl, rfl⟩ | ⟨i, h1, h2⟩)
          · exact hdk
          · rw [hdk] at h2; cases h2; exact h1
      | none =>
        have := getOrCreate_new s d.key hc
        rw [hg] at this
        simp only [Prod.mk.injEq, Res.ok.injEq] at this
        obtain ⟨rfl, rfl⟩ := this
        simp only [checkerDicts, Option.some.injEq, Prod.mk.injEq] at hd1
        obtain ⟨rfl, rfl⟩ := hd1
        have hnone : dictOf s d.key d.write = none := by simp [dictOf, hc]
        constructor
        · intro h
          by_cases hkk : k = d.key
          · left
            subst hkk
            refine ⟨rfl, ?_⟩
            simp only [dictOf, hr1, checkerDicts, Option.map_some, Option.some.injEq, side] at h
            cases w <;> cases hw : d.write <;> simp_all
          · exfalso
            have hrk := hreg1 k hkk
            unfold dictOf at h
            rw [hrk] at h
            cases hck : s.reg.get? k with
            | none => rw [hck] at h; cases h
            | some ck =>
              rw [hck] at h
              simp only at h
              cases hdk' : checkerDicts ck with
              | none => rw [hdk'] at h; cases h
              | some gs =>
                have hb := hh k ck gs.1 gs.2 hck hdk'
                rw [hdk'] at h
                simp only [Option.map_some, Option.some.injEq, side] at h
                split at h <;> split at h <;> omega
        · rintro (⟨rfl, rfl⟩ | ⟨i, h1, h2⟩)
          · exact hdk
          · rw [hnone] at h2; cases h2
    rw [← share]
    rw [required_eq, required_eq, key]
    constructor
    · rintro h
      rw [if_pos h, means_iff]
    · intro h
      rw [if_neg h]

/-- `set` and `frozenset` have the same dictionaries in the default registry, `list` and `dict` do not. -/
example : dictOf Ex.s0 (.ty "set") false = dictOf Ex.s0 (.ty "frozenset") false
    ∧ dictOf Ex.s0 (.ty "set") false ≠ none
    ∧ dictOf Ex.s0 (.ty "list") false ≠ dictOf Ex.s0 (.ty "dict") false := by decide

end ZS.Props
