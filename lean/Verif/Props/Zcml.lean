import Verif.Spec.Zcml
import Verif.Lemmas.Dict

/-!
# C40 Permission ids in ZCML
-/

namespace ZS.Props
open Spec

/-! ## Translation -/

/-- The redefinitions in force, as a function. -/
def mapOf (m : Option (PyDict String String)) (u : String) : String :=
  mapPermission ⟨m, []⟩ u

theorem mapPermission_eq (c : ZCtx) (u : String) : mapPermission c u = mapOf c.mapping u := rfl

theorem mapOf_redefine (c : ZCtx) (a b u : String) :
    mapOf (redefinePermission c a b).mapping u = if a = u then b else mapOf c.mapping u := by
  unfold mapOf mapPermission redefinePermission
  cases h : c.mapping with
  | none => simp only [PyDict.get?_set, PyDict.get?]; split <;> rfl
  | some m => simp only [PyDict.get?_set]; split <;> rfl

theorem fromUnicode_ok {f : IdField} {c c1 : ZCtx} {raw v : String} :
    permissionFromUnicode f c raw = .ok (v, c1) ↔
      f.valid (f.strip raw) = true ∧ v = mapOf c.mapping (f.strip raw)
      ∧ c1 = if f.strip raw = "zope.Public" then c else { c with actions := c.actions ++ [.check (f.strip raw)] } := by
  unfold permissionFromUnicode validatePermission
  by_cases hv : f.valid (f.strip raw) = true
  · rw [if_pos hv]
    by_cases hp : f.strip raw = "zope.Public"
    · rw [if_neg (by intro h; exact h hp), if_pos hp]
      simp only [Res.ok.injEq, Prod.mk.injEq, mapPermission_eq, hv, true_and]
      exact ⟨fun h => ⟨h.1.symm, h.2.symm⟩, fun h => ⟨h.1.symm, h.2.symm⟩⟩
    · rw [if_pos (show f.strip raw ≠ zopePublic from hp), if_neg hp]
      simp only [Res.ok.injEq, Prod.mk.injEq, mapPermission_eq, hv, true_and]
      exact ⟨fun h => ⟨h.1.symm, h.2.symm⟩, fun h => ⟨h.1.symm, h.2.symm⟩⟩
  · simp [hv]

theorem fromUnicode_mapping {f : IdField} {c c1 : ZCtx} {raw v : String}
    (h : permissionFromUnicode f c raw = .ok (v, c1)) : c1.mapping = c.mapping := by
  obtain ⟨_, _, h3⟩ := fromUnicode_ok.mp h
  rw [h3]; split <;> rfl

/-- The mapping is what the history says. -/
def Agrees (f : IdField) (h : List ZDirective) (c : ZCtx) : Prop :=
  ∀ u v, StandsFor f h u v ↔ mapOf c.mapping u = v

theorem read_agrees {f : IdField} {h : List ZDirective} {c c1 : ZCtx} {d : ZDirective} {l : List String}
    (ha : Agrees f h c) (hr : readZ f c d = .ok (l, c1)) : Agrees f (d :: h) c1 := by
  intro u v
  have skip : (∀ a b, d ≠ .redefine a b) → c1.mapping = c.mapping → (StandsFor f (d :: h) u v ↔ mapOf c1.mapping u = v) := by
    intro hd hm
    rw [hm, ← ha u v]
    constructor
    · intro hs
      cases hs with
      | skip _ hs => exact hs
      | redefined => exact absurd rfl (hd _ _)
      | other => exact absurd rfl (hd _ _)
    · exact .skip hd
  cases d with
  | permission raw =>
    simp only [readZ] at hr
    split at hr
    · cases hr; exact skip (by intro a b h; cases h) rfl
    · cases hr
  | securityPolicy p =>
    simp only [readZ] at hr
    cases hr; exact skip (by intro a b h; cases h) rfl
  | use raw =>
    simp only [readZ] at hr
    cases hf : permissionFromUnicode f c raw with
    | ok x =>
      obtain ⟨p, c2⟩ := x
      rw [hf] at hr
      cases hr
      exact skip (by intro a b h; cases h) (fromUnicode_mapping hf)
    | err e => rw [hf] at hr; cases hr
    | diverge => rw [hf] at hr; cases hr
  | redefine a b =>
    simp only [readZ] at hr
    cases hf : permissionFromUnicode f c a with
    | err e => rw [hf] at hr; cases hr
    | diverge => rw [hf] at hr; cases hr
    | ok x =>
      obtain ⟨a', c2⟩ := x
      rw [hf] at hr
      simp only at hr
      cases hg : permissionFromUnicode f c2 b with
      | err e => rw [hg] at hr; cases hr
      | diverge => rw [hg] at hr; cases hr
      | ok y =>
        obtain ⟨b', c3⟩ := y
        rw [hg] at hr
        cases hr
        have m1 := fromUnicode_mapping hf
        have m2 := fromUnicode_mapping hg
        have ea := (fromUnicode_ok.mp hf).2.1
        have eb := (fromUnicode_ok.mp hg).2.1
        rw [m1] at eb
        rw [mapOf_redefine, m2, m1]
        have ha' : StandsFor f h (f.strip a) a' := (ha _ _).mpr ea.symm
        have hb' : StandsFor f h (f.strip b) b' := (ha _ _).mpr eb.symm
        constructor
        · intro hs
          cases hs with
          | redefined h1 h2 =>
            have e1 := (ha _ _).mp h1
            rw [if_pos (by rw [ea, e1]), eb]
            exact (ha _ _).mp h2
          | other h1 h2 h3 =>
            have e1 := (ha _ _).mp h1
            rw [if_neg (by rw [ea, e1]; exact Ne.symm h2)]
            exact (ha _ _).mp h3
          | skip h1 => exact absurd rfl (h1 a b)
        · intro hv
          by_cases he : a' = u
          · rw [if_pos he] at hv
            subst he hv
            exact .redefined ha' hb'
          · rw [if_neg he] at hv
            exact .other ha' (Ne.symm he) ((ha u v).mpr hv)

/-- Splitting off the first directive. -/
theorem readAllZ_cons {f : IdField} {c c2 : ZCtx} {d : ZDirective} {r : List ZDirective} {l : List String} :
    readAllZ f c (d :: r) = .ok (l, c2) ↔
      ∃ l1 l2 c1, readZ f c d = .ok (l1, c1) ∧ readAllZ f c1 r = .ok (l2, c2) ∧ l = l1 ++ l2 := by
  simp only [readAllZ]
  cases h : readZ f c d with
  | err e => simp
  | diverge => simp
  | ok x =>
    obtain ⟨l1, c1⟩ := x
    simp only
    cases h2 : readAllZ f c1 r with
    | err e => simp [h2]
    | diverge => simp [h2]
    | ok y =>
      obtain ⟨l2, c3⟩ := y
      simp only [Res.ok.injEq, Prod.mk.injEq]
      constructor
      · rintro ⟨rfl, rfl⟩; exact ⟨l1, l2, c1, ⟨rfl, rfl⟩, h2, rfl⟩
      · rintro ⟨_, _, _, ⟨rfl, rfl⟩, h4, rfl⟩
        rw [h2] at h4; cases h4; exact ⟨rfl, rfl⟩

theorem readAll_agrees {f : IdField} {h : List ZDirective} {c c1 : ZCtx} {ds : List ZDirective} {l : List String}
    (ha : Agrees f h c) (hr : readAllZ f c ds = .ok (l, c1)) : Agrees f (ds.reverse ++ h) c1 := by
  induction ds generalizing c h l with
  | nil => cases hr; exact ha
  | cons d r ih =>
    obtain ⟨l1, l2, c2, h1, h2, _⟩ := readAllZ_cons.mp hr
    have := ih (read_agrees ha h1) h2
    simpa using this

theorem agrees_start (f : IdField) : Agrees f [] ⟨none, []⟩ := by
  intro u v
  constructor
  · intro h; cases h; rfl
  · intro h
    have : u = v := h
    subst this
    exact .start

/-- Reading several lists of directives. -/
theorem readAllZ_append {f : IdField} {c c2 : ZCtx} {ds1 ds2 : List ZDirective} {l : List String} :
    readAllZ f c (ds1 ++ ds2) = .ok (l, c2) ↔
      ∃ l1 l2 c1, readAllZ f c ds1 = .ok (l1, c1) ∧ readAllZ f c1 ds2 = .ok (l2, c2) ∧ l = l1 ++ l2 := by
  induction ds1 generalizing c l with
  | nil =>
    constructor
    · intro h; exact ⟨[], l, c, rfl, h, rfl⟩
    · rintro ⟨l1, l2, c1, h1, h2, rfl⟩; cases h1; exact h2
  | cons d r ih =>
    rw [List.cons_append, readAllZ_cons]
    constructor
    · rintro ⟨l1, l2, c1, h1, h2, rfl⟩
      obtain ⟨m1, m2, c3, h3, h4, rfl⟩ := ih.mp h2
      exact ⟨l1 ++ m1, m2, c3, readAllZ_cons.mpr ⟨l1, m1, c1, h1, h3, rfl⟩, h4, by simp⟩
    · rintro ⟨l1, l2, c1, h1, h2, rfl⟩
      obtain ⟨m1, m2, c3, h3, h4, rfl⟩ := readAllZ_cons.mp h1
      exact ⟨m1, m2 ++ l2, c3, h3, ih.mpr ⟨m2, l2, c1, h4, h2, rfl⟩, by simp⟩

/-- The history determines what an id stands for, and every id stands for something. -/
theorem standsFor_functional {f : IdField} {h : List ZDirective} {u v v' : String} (h1 : StandsFor f h u v)
    (h2 : StandsFor f h u v') : v = v' := by
  induction h generalizing u v v' with
  | nil => cases h1; cases h2; rfl
  | cons d r ih =>
    cases h1 with
    | redefined a1 a2 =>
      cases h2 with
      | redefined b1 b2 => exact ih a2 b2
      | other b1 b2 b3 => exact absurd (ih a1 b1) b2
      | skip b1 _ => exact absurd rfl (b1 _ _)
    | other a1 a2 a3 =>
      cases h2 with
      | redefined b1 b2 => exact absurd (ih b1 a1) a2
      | other b1 b2 b3 => exact ih a3 b3
      | skip b1 _ => exact absurd rfl (b1 _ _)
    | skip a1 a2 =>
      cases h2 with
      | redefined b1 b2 => exact absurd rfl (a1 _ _)
      | other b1 b2 b3 => exact absurd rfl (a1 _ _)
      | skip _ b2 => exact ih a2 b2

theorem standsFor_total (f : IdField) (h : List ZDirective) (u : String) : ∃ v, StandsFor f h u v := by
  induction h generalizing u with
  | nil => exact ⟨u, .start⟩
  | cons d r ih =>
    by_cases hd : ∃ a b, d = .redefine a b
    · obtain ⟨a, b, rfl⟩ := hd
      obtain ⟨u', hu'⟩ := ih (f.strip a)
      obtain ⟨v', hv'⟩ := ih (f.strip b)
      obtain ⟨v, hv⟩ := ih u
      by_cases he : u = u'
      · subst he; exact ⟨v', .redefined hu' hv'⟩
      · exact ⟨v, .other hu' he hv⟩
    · obtain ⟨v, hv⟩ := ih u
      exact ⟨v, .skip (fun a b h => hd ⟨a, b, h⟩) hv⟩

/-- **C40** In any configuration that is read without exception, a directive that uses a permission
id gets what that id stands for after the directives before it. -/
theorem C40_translation (f : IdField) (ds1 ds2 : List ZDirective) (raw : String) (l : List String) (c : ZCtx)
    (h : readAllZ f ⟨none, []⟩ (ds1 ++ .use raw :: ds2) = .ok (l, c)) :
    ∃ l1 v l2 c1, readAllZ f ⟨none, []⟩ ds1 = .ok (l1, c1) ∧ l = l1 ++ v :: l2 ∧ StandsFor f ds1.reverse (f.strip raw) v := by
  obtain ⟨l1, l2, c1, h1, h2, rfl⟩ := readAllZ_append.mp h
  obtain ⟨m1, m2, c2, h3, h4, rfl⟩ := readAllZ_cons.mp h2
  have ha := readAll_agrees (agrees_start f) h1
  simp only [readZ] at h3
  cases hf : permissionFromUnicode f c1 raw with
  | err e => rw [hf] at h3; cases h3
  | diverge => rw [hf] at h3; cases h3
  | ok x =>
    obtain ⟨p, c3⟩ := x
    rw [hf] at h3
    cases h3
    refine ⟨l1, p, m2, c1, h1, rfl, ?_⟩
    have := (ha (f.strip raw) p).mpr (fromUnicode_ok.mp hf).2.1.symm
    simpa using this

/-- After reading the configuration, a directive that uses the text as permission id gets `v`. -/
def Gives (f : IdField) (ds : List ZDirective) (raw v : String) : Prop :=
  ∃ l c c', readAllZ f ⟨none, []⟩ ds = .ok (l, c) ∧ readZ f c (.use raw) = .ok ([v], c')

theorem gives_iff {f : IdField} {ds : List ZDirective} {raw v : String} :
    Gives f ds raw v ↔ (∃ l c, readAllZ f ⟨none, []⟩ ds = .ok (l, c)) ∧ f.valid (f.strip raw) = true
      ∧ StandsFor f ds.reverse (f.strip raw) v := by
  constructor
  · rintro ⟨l, c, c', h1, h2⟩
    have ha := readAll_agrees (agrees_start f) h1
    simp only [readZ] at h2
    cases hf : permissionFromUnicode f c raw with
    | err e => rw [hf] at h2; cases h2
    | diverge => rw [hf] at h2; cases h2
    | ok x =>
      obtain ⟨p, c3⟩ := x
      rw [hf] at h2
      cases h2
      obtain ⟨g1, g2, _⟩ := fromUnicode_ok.mp hf
      refine ⟨⟨l, c, h1⟩, g1, ?_⟩
      have := (ha (f.strip raw) v).mpr g2.symm
      simpa using this
  · rintro ⟨⟨l, c, h1⟩, h2, h3⟩
    have ha := readAll_agrees (agrees_start f) h1
    have hm : mapOf c.mapping (f.strip raw) = v := (ha _ _).mp (by simpa using h3)
    have hf := (fromUnicode_ok (f := f) (c := c)).mpr ⟨h2, hm.symm, rfl⟩
    exact ⟨l, c, _, h1, by simp only [readZ, hf]; rfl⟩

theorem read_redefine {f : IdField} {ds : List ZDirective} {a b : String}
    (h : ∃ l c, readAllZ f ⟨none, []⟩ ds = .ok (l, c)) (ha : f.valid (f.strip a) = true) (hb : f.valid (f.strip b) = true) :
    ∃ l c, readAllZ f ⟨none, []⟩ (ds ++ [.redefine a b]) = .ok (l, c) := by
  obtain ⟨l, c, h1⟩ := h
  have hf := (fromUnicode_ok (f := f) (c := c) (raw := a)).mpr ⟨ha, rfl, rfl⟩
  generalize hc : (if f.strip a = "zope.Public" then c else { c with actions := c.actions ++ [.check (f.strip a)] }) = c1 at hf
  have hg := (fromUnicode_ok (f := f) (c := c1) (raw := b)).mpr ⟨hb, rfl, rfl⟩
  have hz : ∃ c2, readZ f c (.redefine a b) = .ok ([], c2) := ⟨_, by simp only [readZ, hf, hg]; rfl⟩
  obtain ⟨c2, hz⟩ := hz
  exact ⟨_, c2, readAllZ_append.mpr ⟨l, _, c, h1, readAllZ_cons.mpr ⟨[], [], c2, hz, rfl, rfl⟩, rfl⟩⟩

/-- **C40** A redefinition changes what is got for one id only: the one that its `from` gives at that
moment.  For every other id directives get what they would have got without it. -/
theorem C40_other_ids (f : IdField) (ds : List ZDirective) (a b raw v x y : String) (ha : Gives f ds a x)
    (hb : Gives f ds b y) (hu : f.strip raw ≠ x) : Gives f (ds ++ [.redefine a b]) raw v ↔ Gives f ds raw v := by
  obtain ⟨hr, va, sa⟩ := gives_iff.mp ha
  obtain ⟨_, vb, sb⟩ := gives_iff.mp hb
  rw [gives_iff, gives_iff]
  simp only [List.reverse_append, List.reverse_cons, List.reverse_nil, List.nil_append, List.singleton_append]
  constructor
  · rintro ⟨_, h2, h3⟩
    refine ⟨hr, h2, ?_⟩
    cases h3 with
    | redefined h4 h5 => exact absurd (standsFor_functional h4 sa) hu
    | other h4 h5 h6 => exact h6
    | skip h4 _ => exact absurd rfl (h4 a b)
  · rintro ⟨_, h2, h3⟩
    exact ⟨read_redefine hr va vb, h2, .other sa hu h3⟩

/-- **C40** For the id that `from` gives, directives get what `to` gives at that moment. -/
theorem C40_redefined_id (f : IdField) (ds : List ZDirective) (a b raw x y : String) (ha : Gives f ds a x)
    (hb : Gives f ds b y) (hraw : f.strip raw = x) (hv : f.valid x = true) : Gives f (ds ++ [.redefine a b]) raw y := by
  obtain ⟨hr, va, sa⟩ := gives_iff.mp ha
  obtain ⟨_, vb, sb⟩ := gives_iff.mp hb
  rw [gives_iff]
  refine ⟨read_redefine hr va vb, by rw [hraw]; exact hv, ?_⟩
  simp only [List.reverse_append, List.reverse_cons, List.reverse_nil, List.nil_append, List.singleton_append]
  rw [hraw]
  exact .redefined sa sb

/-- **C40** At most one step: what is got for an id is not looked up again.  When `u` already gives
`x` and `x` is redefined to `y` afterwards, then `x` gives `y` and `u` still gives `x`. -/
theorem C40_one_step (f : IdField) (ds : List ZDirective) (u x b y : String) (hx : f.strip x = x) (hu : Gives f ds u x)
    (hself : Gives f ds x x) (hb : Gives f ds b y) (hne : f.strip u ≠ x) :
    Gives f (ds ++ [.redefine x b]) u x ∧ Gives f (ds ++ [.redefine x b]) x y :=
  ⟨(C40_other_ids f ds x b u x x y hself hb hne).mpr hu,
    C40_redefined_id f ds x b x x y hself hb hx (by have := (gives_iff.mp hself).2.1; rwa [hx] at this)⟩

/-- **C40** In particular redefining an id a second time does not change what directives get for it:
what changes is what they get for its first replacement. -/
theorem C40_second_redefinition (f : IdField) (hs : ∀ x, f.strip x = x) (hv : ∀ x, f.valid x = true) (a b c : String)
    (hab : a ≠ b) (hac : a ≠ c) :
    Gives f [.redefine a b, .redefine a c] a b ∧ Gives f [.redefine a b, .redefine a c] b c := by
  have g0 : ∀ x, Gives f [] x x := fun x => gives_iff.mpr ⟨⟨_, _, rfl⟩, hv _, by rw [hs]; exact .start⟩
  have g1 : Gives f [.redefine a b] a b := C40_redefined_id f [] a b a a b (g0 a) (g0 b) (hs a) (hv a)
  have g2 : Gives f [.redefine a b] c c := (C40_other_ids f [] a b c c a b (g0 a) (g0 b) (by rw [hs]; exact Ne.symm hac)).mpr (g0 c)
  exact ⟨(C40_other_ids f [.redefine a b] a c a b b c g1 g2 (by rw [hs]; exact hab)).mpr g1,
    C40_redefined_id f [.redefine a b] a c b b c g1 g2 (hs b) (hv b)⟩

/-- **C40** `zope.Public` can itself be redefined: directives then get the other permission for it. -/
theorem C40_public_redefinable (f : IdField) (hs : ∀ x, f.strip x = x) (hv : ∀ x, f.valid x = true) (b : String) :
    Gives f [.redefine "zope.Public" b] "zope.Public" b := by
  have g0 : ∀ x, Gives f [] x x := fun x => gives_iff.mpr ⟨⟨_, _, rfl⟩, hv _, by rw [hs]; exact .start⟩
  exact C40_redefined_id f [] _ b _ _ b (g0 _) (g0 b) (hs _) (hv _)

/-- A chain of redefinitions in either order. -/
example :
    let f : IdField := ⟨fun x => x, fun _ => true⟩
    Gives f [.redefine "a.a" "b.b", .redefine "b.b" "c.c"] "a.a" "b.b"
    ∧ Gives f [.redefine "b.b" "c.c", .redefine "a.a" "b.b"] "a.a" "c.c" :=
  ⟨⟨_, _, _, rfl, rfl⟩, ⟨_, _, _, rfl, rfl⟩⟩

/-- The example of redefineperms.zcml. -/
example :
    readAllZ ⟨fun x => x, fun _ => true⟩ ⟨none, []⟩
      [.permission "zope.View", .permission "zope.Security", .redefine "zope.View" "zope.Security", .use "zope.View",
       .use "zope.Public"]
    = .ok (["zope.Security", "zope.Public"],
      ⟨some [("zope.View", "zope.Security")],
       [.define "zope.View", .define "zope.Security", .check "zope.View", .check "zope.Security", .check "zope.View"]⟩) := by
  decide

/-! ## Validation -/

/-- The actions of a configuration. -/
theorem read_actions {f : IdField} {c c1 : ZCtx} {d : ZDirective} {l : List String} (h : readZ f c d = .ok (l, c1)) :
    (∀ u, .check u ∈ c1.actions ↔ .check u ∈ c.actions ∨ (Mentions f d u ∧ u ≠ "zope.Public"))
    ∧ (∀ u, .define u ∈ c1.actions ↔ .define u ∈ c.actions ∨ Defines f d u)
    ∧ (∀ u, Mentions f d u ∨ Defines f d u → f.valid u = true) := by
  have field : ∀ {c c1 : ZCtx} {raw v : String}, permissionFromUnicode f c raw = .ok (v, c1) →
      (∀ u, .check u ∈ c1.actions ↔ .check u ∈ c.actions ∨ (u = f.strip raw ∧ u ≠ "zope.Public"))
      ∧ (∀ u, .define u ∈ c1.actions ↔ .define u ∈ c.actions) ∧ f.valid (f.strip raw) = true := by
    intro c c1 raw v hf
    obtain ⟨h1, _, h3⟩ := fromUnicode_ok.mp hf
    subst h3
    refine ⟨fun u => ?_, fun u => ?_, h1⟩
    · split
      · next hp =>
        constructor
        · exact .inl
        · rintro (h | ⟨rfl, h⟩)
          · exact h
          · exact absurd hp h
      · next hp =>
        simp only [List.mem_append, List.mem_singleton, ZAction.check.injEq]
        constructor
        · rintro (h | rfl)
          · exact .inl h
          · exact .inr ⟨rfl, hp⟩
        · rintro (h | ⟨h, _⟩)
          · exact .inl h
          · exact .inr h
    · split
      · rfl
      · simp
  cases d with
  | permission raw =>
    simp only [readZ] at h
    split at h
    · next hv =>
      cases h
      refine ⟨fun u => ?_, fun u => ?_, fun u hu => ?_⟩
      · simp only [List.mem_append, List.mem_singleton, reduceCtorEq, or_false]
        constructor
        · exact .inl
        · rintro (h | ⟨h, _⟩)
          · exact h
          · cases h
      · simp only [List.mem_append, List.mem_singleton, ZAction.define.injEq]
        constructor
        · rintro (h | rfl)
          · exact .inl h
          · exact .inr .permission
        · rintro (h | h)
          · exact .inl h
          · cases h; exact .inr rfl
      · rcases hu with h | h
        · cases h
        · cases h; exact hv
    · cases h
  | securityPolicy p =>
    simp only [readZ] at h
    cases h
    refine ⟨fun u => ?_, fun u => ?_, fun u hu => ?_⟩
    · simp only [List.mem_append, List.mem_singleton, reduceCtorEq, or_false]
      exact ⟨.inl, fun h => h.elim id (fun h => by cases h.1)⟩
    · simp only [List.mem_append, List.mem_singleton, reduceCtorEq, or_false]
      exact ⟨.inl, fun h => h.elim id (fun h => by cases h)⟩
    · rcases hu with h | h <;> cases h
  | use raw =>
    simp only [readZ] at h
    cases hf : permissionFromUnicode f c raw with
    | err e => rw [hf] at h; cases h
    | diverge => rw [hf] at h; cases h
    | ok x =>
      obtain ⟨p, c3⟩ := x
      rw [hf] at h
      cases h
      obtain ⟨h1, h2, h3⟩ := field hf
      refine ⟨fun u => ?_, fun u => ?_, fun u hu => ?_⟩
      · rw [h1]
        constructor
        · rintro (h | ⟨rfl, h⟩)
          · exact .inl h
          · exact .inr ⟨.use, h⟩
        · rintro (h | ⟨h, h'⟩)
          · exact .inl h
          · cases h; exact .inr ⟨rfl, h'⟩
      · rw [h2]
        exact ⟨.inl, fun h => h.elim id (fun h => by cases h)⟩
      · rcases hu with h | h
        · cases h; exact h3
        · cases h
  | redefine a b =>
    simp only [readZ] at h
    cases hf : permissionFromUnicode f c a with
    | err e => rw [hf] at h; cases h
    | diverge => rw [hf] at h; cases h
    | ok x =>
      obtain ⟨a', c2⟩ := x
      rw [hf] at h
      simp only at h
      cases hg : permissionFromUnicode f c2 b with
      | err e => rw [hg] at h; cases h
      | diverge => rw [hg] at h; cases h
      | ok y =>
        obtain ⟨b', c3⟩ := y
        rw [hg] at h
        cases h
        obtain ⟨h1, h2, h3⟩ := field hf
        obtain ⟨g1, g2, g3⟩ := field hg
        have ha : (redefinePermission c3 a' b').actions = c3.actions := rfl
        rw [ha]
        refine ⟨fun u => ?_, fun u => ?_, fun u hu => ?_⟩
        · rw [g1, h1]
          constructor
          · rintro ((h | ⟨rfl, h⟩) | ⟨rfl, h⟩)
            · exact .inl h
            · exact .inr ⟨.from_, h⟩
            · exact .inr ⟨.to, h⟩
          · rintro (h | ⟨h, h'⟩)
            · exact .inl (.inl h)
            · cases h with
              | from_ => exact .inl (.inr ⟨rfl, h'⟩)
              | to => exact .inr ⟨rfl, h'⟩
        · rw [g2, h2]
          exact ⟨.inl, fun h => h.elim id (fun h => by cases h)⟩
        · rcases hu with h | h
          · cases h with
            | from_ => exact h3
            | to => exact g3
          · cases h

theorem readAll_actions {f : IdField} {c c1 : ZCtx} {ds : List ZDirective} {l : List String}
    (h : readAllZ f c ds = .ok (l, c1)) :
    (∀ u, .check u ∈ c1.actions ↔ .check u ∈ c.actions ∨ ((∃ d ∈ ds, Mentions f d u) ∧ u ≠ "zope.Public"))
    ∧ (∀ u, .define u ∈ c1.actions ↔ .define u ∈ c.actions ∨ ∃ d ∈ ds, Defines f d u)
    ∧ (∀ d ∈ ds, ∀ u, Mentions f d u ∨ Defines f d u → f.valid u = true) := by
  induction ds generalizing c l with
  | nil => cases h; simp
  | cons d r ih =>
    obtain ⟨l1, l2, c2, h1, h2, _⟩ := readAllZ_cons.mp h
    obtain ⟨a1, a2, a3⟩ := read_actions h1
    obtain ⟨b1, b2, b3⟩ := ih h2
    refine ⟨fun u => ?_, fun u => ?_, fun d' hd' => ?_⟩
    · rw [b1, a1]
      simp only [List.mem_cons, exists_eq_or_imp]
      constructor
      · rintro ((h | ⟨h, h'⟩) | ⟨h, h'⟩)
        · exact .inl h
        · exact .inr ⟨.inl h, h'⟩
        · exact .inr ⟨.inr h, h'⟩
      · rintro (h | ⟨h | h, h'⟩)
        · exact .inl (.inl h)
        · exact .inl (.inr ⟨h, h'⟩)
        · exact .inr ⟨h, h'⟩
    · rw [b2, a2]
      simp only [List.mem_cons, exists_eq_or_imp]
      exact or_assoc
    · cases hd' with
      | head => exact a3
      | tail _ hd' => exact b3 d' hd'

/-- Reading succeeds exactly when all ids are well-formed. -/
theorem readAll_ok_of_valid {f : IdField} (c : ZCtx) (ds : List ZDirective)
    (h : ∀ d ∈ ds, ∀ u, Mentions f d u ∨ Defines f d u → f.valid u = true) : ∃ l c1, readAllZ f c ds = .ok (l, c1) := by
  induction ds generalizing c with
  | nil => exact ⟨[], c, rfl⟩
  | cons d r ih =>
    have hd := h d (by simp)
    have field : ∀ (c : ZCtx) (raw : String), f.valid (f.strip raw) = true → ∃ x, permissionFromUnicode f c raw = .ok x :=
      fun c raw hv => ⟨(_, _), fromUnicode_ok.mpr ⟨hv, rfl, rfl⟩⟩
    have : ∃ l c1, readZ f c d = .ok (l, c1) := by
      cases d with
      | permission raw => exact ⟨_, _, by simp only [readZ, hd _ (.inr .permission), if_true]; rfl⟩
      | securityPolicy p => exact ⟨_, _, rfl⟩
      | use raw =>
        obtain ⟨x, hx⟩ := field c raw (hd _ (.inl .use))
        exact ⟨_, _, by simp only [readZ, hx]; rfl⟩
      | redefine a b =>
        obtain ⟨⟨x1, x2⟩, hx⟩ := field c a (hd _ (.inl .from_))
        obtain ⟨⟨y1, y2⟩, hy⟩ := field x2 b (hd _ (.inl .to))
        exact ⟨_, _, by simp only [readZ, hx, hy]; rfl⟩
    obtain ⟨l1, c1, h1⟩ := this
    obtain ⟨l2, c2, h2⟩ := ih c1 (fun d' hd' => h d' (by simp [hd']))
    exact ⟨_, _, readAllZ_cons.mpr ⟨l1, l2, c1, h1, h2, rfl⟩⟩

/-! Carrying out -/

theorem queryUtility_iff (us : Utilities) (u : String) : (∃ v, queryUtility us u = some v) ↔ Registered us u := by
  unfold queryUtility Registered
  induction us with
  | nil => simp
  | cons x r ih =>
    obtain ⟨a, b⟩ := x
    by_cases h : u = a
    · subst h
      simp [List.lookup]
    · have : (u == a) = false := by simp [h]
      simp only [List.lookup, this]
      rw [ih]
      simp [h]

theorem checkDefined_iff (us : Utilities) (u : String) :
    (checkPermissionDefined us (fun _ => true) (.id u) = .ok () ↔ Registered us u)
    ∧ (checkPermissionDefined us (fun _ => true) (.id u) = .err .valueError ↔ ¬ Registered us u) := by
  rw [← queryUtility_iff]
  unfold checkPermissionDefined
  cases h : queryUtility us u <;> simp [h]

/-- Carrying out a list of actions in which every check comes after every definition. -/
theorem run_sorted (l : List ZAction) (s : ZSite)
    (hs : l.Pairwise fun a b => a.order ≤ b.order) :
    ((∃ s', runZActions s l = .ok s') ∨ runZActions s l = .err .valueError)
    ∧ ((∃ s', runZActions s l = .ok s') ↔ ∀ u, .check u ∈ l → Registered s.utilities u ∨ .define u ∈ l)
    ∧ (∀ s', runZActions s l = .ok s' → ∀ u, Registered s'.utilities u ↔ Registered s.utilities u ∨ .define u ∈ l) := by
  induction l generalizing s with
  | nil =>
    refine ⟨.inl ⟨s, rfl⟩, ⟨(fun _ u h => by cases h), fun _ => ⟨s, rfl⟩⟩, fun s' h u => ?_⟩
    cases h; simp
  | cons a r ih =>
    obtain ⟨ha, hr⟩ := List.pairwise_cons.mp hs
    cases a with
    | define id =>
      obtain ⟨i1, i2, i3⟩ := ih { s with utilities := (id, 0) :: s.utilities } hr
      have hreg : ∀ u, Registered ((id, 0) :: s.utilities) u ↔ u = id ∨ Registered s.utilities u := by
        intro u
        simp [Registered, exists_or]
      simp only [runZActions, runZAction]
      refine ⟨i1, ?_, fun s' h u => ?_⟩
      · rw [i2]
        simp only [List.mem_cons, reduceCtorEq, false_or, ZAction.define.injEq, hreg]
        constructor
        · intro h u hu
          rcases h u hu with (h | h) | h
          · exact .inr (.inl h)
          · exact .inl h
          · exact .inr (.inr h)
        · intro h u hu
          rcases h u hu with h | h | h
          · exact .inl (.inr h)
          · exact .inl (.inl h)
          · exact .inr h
      · rw [i3 s' h u, hreg]
        simp only [List.mem_cons, ZAction.define.injEq]
        constructor
        · rintro ((h | h) | h)
          · exact .inr (.inl h)
          · exact .inl h
          · exact .inr (.inr h)
        · rintro (h | h | h)
          · exact .inl (.inr h)
          · exact .inl (.inl h)
          · exact .inr h
    | policy p =>
      obtain ⟨i1, i2, i3⟩ := ih { s with policy := some p } hr
      simp only [runZActions, runZAction]
      refine ⟨i1, ?_, fun s' h u => ?_⟩
      · rw [i2]; simp
      · rw [i3 s' h u]; simp
    | check id =>
      have hnd : ∀ u, .define u ∉ r := by
        intro u hu
        have := ha _ hu
        simp [ZAction.order] at this
      obtain ⟨i1, i2, i3⟩ := ih s hr
      by_cases hreg : Registered s.utilities id
      · have hc := (checkDefined_iff s.utilities id).1.mpr hreg
        simp only [runZActions, runZAction, hc]
        refine ⟨i1, ?_, fun s' h u => ?_⟩
        · rw [i2]
          simp only [List.mem_cons, ZAction.check.injEq, reduceCtorEq, false_or]
          constructor
          · rintro h u (rfl | hu)
            · exact .inl hreg
            · exact h u hu
          · intro h u hu; exact h u (.inr hu)
        · rw [i3 s' h u]; simp
      · have hc := (checkDefined_iff s.utilities id).2.mpr hreg
        simp only [runZActions, runZAction, hc]
        refine ⟨.inr trivial, ⟨(fun ⟨s', h⟩ => by cases h), fun h => ?_⟩, (fun s' h => by cases h)⟩
        rcases h id (by simp) with h | h
        · exact absurd h hreg
        · simp only [List.mem_cons, reduceCtorEq, false_or] at h
          exact absurd h (hnd id)

theorem sortActions_sorted (l : List ZAction) : (sortActions l).Pairwise fun a b => a.order ≤ b.order := by
  have := List.pairwise_mergeSort (le := fun a b : ZAction => decide (a.order ≤ b.order))
    (fun a b c h1 h2 => by simp only [decide_eq_true_eq] at *; omega)
    (fun a b => by simp only [Bool.or_eq_true, decide_eq_true_eq]; omega) l
  exact this.imp (fun h => by simpa using h)

/-- **C40** A configuration with well-formed ids succeeds exactly when every permission id that
occurs in it, apart from `zope.Public`, is registered or defined somewhere in it, before or after its
use; otherwise it fails with the `ValueError` of `checkPermission`. -/
theorem C40_defined (f : IdField) (s : ZSite) (ds : List ZDirective)
    (hv : ∀ d ∈ ds, ∀ u, Mentions f d u ∨ Defines f d u → f.valid u = true) :
    ((∃ r, configureZ f s ds = .ok r) ∨ configureZ f s ds = .err .valueError)
    ∧ ((∃ r, configureZ f s ds = .ok r) ↔
        ∀ u, (∃ d ∈ ds, Mentions f d u) → u ≠ "zope.Public" → Registered s.utilities u ∨ ∃ d ∈ ds, Defines f d u) := by
  obtain ⟨l, c, hr⟩ := readAll_ok_of_valid ⟨none, []⟩ ds hv
  obtain ⟨a1, a2, _⟩ := readAll_actions hr
  obtain ⟨r1, r2, _⟩ := run_sorted (sortActions c.actions) s (sortActions_sorted _)
  have hmem : ∀ a, a ∈ sortActions c.actions ↔ a ∈ c.actions := fun a => (List.mergeSort_perm _ _).mem_iff
  have hconf : configureZ f s ds = match runZActions s (sortActions c.actions) with
      | .ok s' => .ok (l, s')
      | .err e => .err e
      | .diverge => .diverge := by
    simp only [configureZ, hr]
    cases runZActions s (sortActions c.actions) <;> rfl
  have hiff : (∃ r, configureZ f s ds = .ok r) ↔ ∃ s', runZActions s (sortActions c.actions) = .ok s' := by
    rw [hconf]
    cases runZActions s (sortActions c.actions) <;> simp
  refine ⟨?_, ?_⟩
  · rcases r1 with h | h
    · exact .inl (hiff.mpr h)
    · right; rw [hconf, h]
  · rw [hiff, r2]
    simp only [hmem, a1, a2, List.not_mem_nil, false_or]
    constructor
    · intro h u hu hp; exact h u ⟨hu, hp⟩
    · rintro h u ⟨hu, hp⟩; exact h u hu hp

/-- What an id stands for is an id that occurs in the history, or the id itself. -/
theorem standsFor_mentioned {f : IdField} {h : List ZDirective} {u v : String} (hs : StandsFor f h u v) :
    v = u ∨ ∃ d ∈ h, Mentions f d v := by
  induction hs with
  | start => exact .inl rfl
  | redefined _ _ _ ih2 =>
    right
    rcases ih2 with rfl | ⟨d, hd, hm⟩
    · exact ⟨_, List.mem_cons_self, .to⟩
    · exact ⟨d, by simp [hd], hm⟩
  | other _ _ _ _ ih3 =>
    rcases ih3 with rfl | ⟨d, hd, hm⟩
    · exact .inl rfl
    · exact .inr ⟨d, by simp [hd], hm⟩
  | skip _ _ ih =>
    rcases ih with rfl | ⟨d, hd, hm⟩
    · exact .inl rfl
    · exact .inr ⟨d, by simp [hd], hm⟩

/-- **C40** The validation is of the id as written, not of what it stands for.  Still, after a
configuration that succeeded, every permission id a directive got is `zope.Public` or registered. -/
theorem C40_given_registered (f : IdField) (s s' : ZSite) (ds : List ZDirective) (l : List String)
    (h : configureZ f s ds = .ok (l, s')) (p : String) (hp : p ∈ l) : p = "zope.Public" ∨ Registered s'.utilities p := by
  unfold configureZ at h
  cases hr : readAllZ f ⟨none, []⟩ ds with
  | err e => rw [hr] at h; cases h
  | diverge => rw [hr] at h; cases h
  | ok x =>
    obtain ⟨l0, c⟩ := x
    rw [hr] at h
    simp only at h
    cases hrun : runZActions s (sortActions c.actions) with
    | err e => rw [hrun] at h; cases h
    | diverge => rw [hrun] at h; cases h
    | ok s1 =>
      rw [hrun] at h
      cases h
      obtain ⟨a1, a2, _⟩ := readAll_actions hr
      obtain ⟨_, r2, r3⟩ := run_sorted (sortActions c.actions) s (sortActions_sorted _)
      have hmem : ∀ a, a ∈ sortActions c.actions ↔ a ∈ c.actions := fun a => (List.mergeSort_perm _ _).mem_iff
      -- the id given comes from a `use` directive
      have given : ∀ (ds : List ZDirective) (h0 : List ZDirective) (c0 c1 : ZCtx) (l : List String), Agrees f h0 c0 →
          readAllZ f c0 ds = .ok (l, c1) → p ∈ l → ∃ d ∈ h0 ++ ds, Mentions f d p := by
        intro ds
        induction ds with
        | nil => intro h0 c0 c1 l _ hr hp; cases hr; cases hp
        | cons d r ih =>
          intro h0 c0 c1 l ha hr hp
          obtain ⟨l1, l2, c2, h1, h2, rfl⟩ := readAllZ_cons.mp hr
          rcases List.mem_append.mp hp with hp | hp
          · cases d with
            | permission raw =>
              simp only [readZ] at h1
              split at h1 <;> cases h1
              cases hp
            | securityPolicy p => simp only [readZ] at h1; cases h1; cases hp
            | redefine a b =>
              simp only [readZ] at h1
              cases hf : permissionFromUnicode f c0 a with
              | err e => rw [hf] at h1; cases h1
              | diverge => rw [hf] at h1; cases h1
              | ok x =>
                obtain ⟨a', c3⟩ := x
                rw [hf] at h1
                simp only at h1
                cases hg : permissionFromUnicode f c3 b with
                | err e => rw [hg] at h1; cases h1
                | diverge => rw [hg] at h1; cases h1
                | ok y => rw [hg] at h1; cases h1; cases hp
            | use raw =>
              simp only [readZ] at h1
              cases hf : permissionFromUnicode f c0 raw with
              | err e => rw [hf] at h1; cases h1
              | diverge => rw [hf] at h1; cases h1
              | ok x =>
                obtain ⟨q, c3⟩ := x
                rw [hf] at h1
                cases h1
                simp only [List.mem_singleton] at hp
                subst hp
                have := (ha _ _).mpr (fromUnicode_ok.mp hf).2.1.symm
                rcases standsFor_mentioned this with h | ⟨d, hd, hm⟩
                · exact ⟨.use raw, by simp, by rw [h]; exact .use⟩
                · exact ⟨d, by simp [hd], hm⟩
          · obtain ⟨d', hd', hm⟩ := ih (d :: h0) c2 c1 l2 (read_agrees ha h1) h2 hp
            refine ⟨d', ?_, hm⟩
            simp only [List.mem_append, List.mem_cons] at hd' ⊢
            rcases hd' with (h | h) | h
            · exact .inr (.inl h)
            · exact .inl h
            · exact .inr (.inr h)
      obtain ⟨d, hd, hm⟩ := given ds [] _ _ _ (agrees_start f) hr hp
      by_cases hpub : p = "zope.Public"
      · exact .inl hpub
      · right
        have hc : ZAction.check p ∈ sortActions c.actions :=
          (hmem _).mpr ((a1 p).mpr (.inr ⟨⟨d, by simpa using hd, hm⟩, hpub⟩))
        rw [r3 s' hrun]
        exact r2.mp ⟨s', hrun⟩ p hc

/-- A permission used before its definition, and one that is not defined. -/
example : (∃ r, configureZ ⟨fun x => x, fun _ => true⟩ ⟨[], none⟩ [.use "a.b", .use "zope.Public", .permission "a.b"] = .ok r)
    ∧ configureZ ⟨fun x => x, fun _ => true⟩ ⟨[], none⟩ [.use "a.b", .permission "a.c"] = .err .valueError := by
  have hv : ∀ ds : List ZDirective, ∀ d ∈ ds, ∀ u, Mentions ⟨fun x => x, fun _ => true⟩ d u ∨ Defines ⟨fun x => x, fun _ => true⟩ d u →
      (⟨fun x => x, fun _ => true⟩ : IdField).valid u = true := fun _ _ _ _ _ => rfl
  constructor
  · rw [(C40_defined _ _ _ (hv _)).2]
    rintro u ⟨d, hd, hm⟩ hp
    right
    refine ⟨.permission "a.b", by simp, ?_⟩
    simp only [List.mem_cons, List.not_mem_nil, or_false] at hd
    rcases hd with rfl | rfl | rfl
    · cases hm; exact .permission
    · cases hm; exact absurd rfl hp
    · cases hm
  · rcases (C40_defined ⟨fun x => x, fun _ => true⟩ ⟨[], none⟩ [.use "a.b", .permission "a.c"] (hv _)).1 with h | h
    · have := (C40_defined _ _ _ (hv _)).2.mp h "a.b" ⟨.use "a.b", by simp, .use⟩ (by decide)
      rcases this with ⟨v, h⟩ | ⟨d, hd, hm⟩
      · cases h
      · simp only [List.mem_cons, List.not_mem_nil, or_false] at hd
        rcases hd with rfl | rfl
        · cases hm
        · generalize hx : "a.b" = x at hm
          cases hm
          exact absurd hx (by decide)
    · exact h

end ZS.Props
