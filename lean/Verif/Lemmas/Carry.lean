import Verif.Lemmas.Load
import Verif.Lemmas.Pres

/-!
# Which actions remain, and what carrying them out does
-/

namespace ZS.Props
open Spec
variable {A : Type}

/-! ## Which actions remain -/

/-- One action has the discriminator here, all others are further inside. -/
def Alone (l : List FAction) (d : Disc) (P : List FAction) (a : FAction) (S : List FAction) : Prop :=
  l = P ++ a :: S ∧ a.disc = some d ∧ ∀ c, c ∈ P ∨ c ∈ S → c.disc = some d → Within a.path c.path

theorem alone_resolved {l : List FAction} {d : Disc} {P : List FAction} {a : FAction} {S : List FAction}
    (h : Alone l d P a S) : Resolved (l.zipIdx.filter fun a => a.1.disc = some d) (a, P.length) := by
  obtain ⟨rfl, h2, h3⟩ := h
  refine ⟨List.mem_filter.mpr ⟨List.mem_zipIdx_iff_getElem?.mpr (by simp), by simpa using h2⟩, ?_⟩
  rintro ⟨c, j⟩ hb hne
  obtain ⟨hb, hd⟩ := List.mem_filter.mp hb
  have hj := List.mem_zipIdx_iff_getElem?.mp hb
  simp only [decide_eq_true_eq] at hd hj
  rcases Nat.lt_trichotomy j P.length with hlt | heq | hgt
  · rw [List.getElem?_append_left hlt] at hj
    exact h3 c (.inl (List.mem_of_getElem? hj)) hd
  · subst heq
    simp only [List.getElem?_append_right (Nat.le_refl _), Nat.sub_self, List.getElem?_cons_zero, Option.some.injEq] at hj
    subst hj
    exact absurd rfl hne
  · rw [List.getElem?_append_right (by omega)] at hj
    obtain ⟨m, hm⟩ : ∃ m, j - P.length = m + 1 := ⟨j - P.length - 1, by omega⟩
    rw [hm, List.getElem?_cons_succ] at hj
    exact h3 c (.inr (List.mem_of_getElem? hj)) hd

theorem resolved_alone {l : List FAction} {d : Disc} {b : Info}
    (h : Resolved (l.zipIdx.filter fun a => a.1.disc = some d) b) : ∃ P S, Alone l d P b.1 S := by
  obtain ⟨a, m⟩ := b
  obtain ⟨h1, h2⟩ := List.mem_filter.mp h.1
  have hm := List.mem_zipIdx_iff_getElem?.mp h1
  simp only [decide_eq_true_eq] at h2 hm
  obtain ⟨hlt, hget⟩ := List.getElem?_eq_some_iff.mp hm
  refine ⟨l.take m, l.drop (m + 1), ?_, h2, ?_⟩
  · have := List.take_append_drop m l
    rw [List.drop_eq_getElem_cons hlt, hget] at this
    exact this.symm
  · rintro c (hc | hc) hcd
    · obtain ⟨j, hj⟩ := List.mem_iff_getElem?.mp hc
      rw [List.getElem?_take] at hj
      split at hj
      · next hjm =>
        refine h.2 (c, j) (List.mem_filter.mpr ⟨List.mem_zipIdx_iff_getElem?.mpr hj, by simpa using hcd⟩) ?_
        intro he
        simp only [Prod.mk.injEq] at he
        omega
      · cases hj
    · obtain ⟨j, hj⟩ := List.mem_iff_getElem?.mp hc
      rw [List.getElem?_drop] at hj
      refine h.2 (c, m + 1 + j) (List.mem_filter.mpr ⟨List.mem_zipIdx_iff_getElem?.mpr hj, by simpa using hcd⟩) ?_
      intro he
      simp only [Prod.mk.injEq] at he
      omega

theorem noConflict_alone (l : List FAction) :
    NoConflict l ↔ ∀ d, (∃ a ∈ l, a.disc = some d) → ∃ P a S, Alone l d P a S := by
  constructor
  · intro h d hd
    obtain ⟨b, hb⟩ := h d hd
    obtain ⟨P, S, h1⟩ := resolved_alone hb
    exact ⟨P, b.1, S, h1⟩
  · intro h d hd
    obtain ⟨P, a, S, h1⟩ := h d hd
    exact ⟨_, alone_resolved h1⟩

theorem prefix_antisymm {a b : List String} (h1 : a <+: b) (h2 : b <+: a) : a = b :=
  h1.eq_of_length (Nat.le_antisymm h1.length_le h2.length_le)

/-- The one action wins, and no other with the discriminator does. -/
theorem alone_wins {l : List FAction} {d : Disc} {P : List FAction} {a : FAction} {S : List FAction}
    (h : Alone l d P a S) : wins l a = true ∧ ∀ c, c ∈ P ∨ c ∈ S → c.disc = some d → wins l c = false := by
  obtain ⟨h1, h2, h3⟩ := h
  have ha : a ∈ l := by rw [h1]; simp
  refine ⟨(wins_iff l a).mpr (.inr ?_), fun c hc hd => ?_⟩
  · intro b hb hbd
    rw [h1] at hb
    rw [h2] at hbd
    rcases List.mem_append.mp hb with hb | hb
    · exact (h3 b (.inl hb) hbd).1
    · rcases List.mem_cons.mp hb with rfl | hb
      · exact List.prefix_refl _
      · exact (h3 b (.inr hb) hbd).1
  · cases hw : wins l c with
    | false => rfl
    | true =>
      obtain ⟨h4, h5⟩ := h3 c hc hd
      rcases (wins_iff l c).mp hw with h6 | h6
      · rw [hd] at h6; cases h6
      · exact absurd (prefix_antisymm h4 (h6 a ha (by rw [h2, hd]))) h5

/-! ## Positions -/

theorem flatten_at {α : Type} (L : List (List α)) (i : Nat) (l : List α) (h : L[i]? = some l) :
    L.flatten = (L.take i).flatten ++ (l ++ (L.drop (i + 1)).flatten) := by
  obtain ⟨hlt, hget⟩ := List.getElem?_eq_some_iff.mp h
  have := List.take_append_drop i L
  rw [List.drop_eq_getElem_cons hlt, hget] at this
  conv => lhs; rw [← this]
  simp

theorem flatten_split {α : Type} (L : List (List α)) (P : List α) (a : α) (S : List α) (h : L.flatten = P ++ a :: S) :
    ∃ i q1 q2, L[i]? = some (q1 ++ a :: q2) ∧ P = (L.take i).flatten ++ q1 ∧ S = q2 ++ (L.drop (i + 1)).flatten := by
  induction L generalizing P with
  | nil => simp at h
  | cons l r ih =>
    rw [List.flatten_cons] at h
    rcases List.append_eq_append_iff.mp h with ⟨x, h1, h2⟩ | ⟨x, h1, h2⟩
    · obtain ⟨i, q1, q2, h3, h4, h5⟩ := ih x h2
      refine ⟨i + 1, q1, q2, by simpa using h3, ?_, by simpa using h5⟩
      rw [h1, h4]; simp
    · cases x with
      | nil =>
        simp only [List.nil_append] at h2
        obtain ⟨i, q1, q2, h3, h4, h5⟩ := ih [] (by simpa using h2.symm)
        refine ⟨i + 1, q1, q2, by simpa using h3, ?_, by simpa using h5⟩
        simp only [List.append_nil] at h1
        simp only [List.take_succ_cons, List.flatten_cons, List.append_assoc, ← h4, h1, List.append_nil]
      | cons b x =>
        simp only [List.cons_append, List.cons.injEq] at h2
        obtain ⟨rfl, h2⟩ := h2
        exact ⟨0, P, x, by simpa using h1, by simp, by simpa using h2⟩

theorem own_path {f : IdField} {p : List Ev} {e : Ev} {own : List FAction} (h : Own f p e own) (a : FAction) (ha : a ∈ own) :
    a.path = includePath p ∧ a.order = 0 := by
  cases h with
  | permission => simp only [List.mem_singleton] at ha; subst ha; exact ⟨rfl, rfl⟩
  | policy => simp only [List.mem_singleton] at ha; subst ha; exact ⟨rfl, rfl⟩
  | directive =>
    obtain ⟨b, _, rfl⟩ := List.mem_map.mp ha
    exact ⟨rfl, rfl⟩
  | _ => cases ha

theorem mem_checks {f : IdField} {π : List String} {e : Ev} {a : FAction} (h : a ∈ checksOf f π e) :
    ∃ raw, Given e raw ∧ f.strip raw ≠ "zope.Public" ∧ a = ⟨none, 9999999, π, .check (f.strip raw)⟩ := by
  obtain ⟨raw, h1, h2⟩ := List.mem_flatMap.mp h
  unfold checkOf at h2
  split at h2
  · cases h2
  · next hne =>
    exact ⟨raw, (mem_givens e raw).mp h1, hne, by simpa using h2⟩

/-- The actions of a readable configuration. -/
structure Emitted (f : IdField) (evs : List Ev) (parts : List (List FAction)) : Prop where
  length : parts.length = evs.length
  at_ : ∀ i e, evs[i]? = some e → ∃ own, Own f (evs.take i) e own
      ∧ parts[i]? = some (checksOf f (includePath (evs.take i)) e ++ own)

theorem Emitted.event {f : IdField} {evs : List Ev} {parts : List (List FAction)} (h : Emitted f evs parts) {i : Nat}
    {l : List FAction} (hi : parts[i]? = some l) :
    ∃ e own, evs[i]? = some e ∧ Own f (evs.take i) e own ∧ l = checksOf f (includePath (evs.take i)) e ++ own := by
  obtain ⟨hlt, _⟩ := List.getElem?_eq_some_iff.mp hi
  have hlt' : i < evs.length := by rw [← h.length]; exact hlt
  obtain ⟨own, h1, h2⟩ := h.at_ i evs[i] (List.getElem?_eq_getElem hlt')
  rw [hi] at h2
  exact ⟨_, own, List.getElem?_eq_getElem hlt', h1, Option.some.inj h2⟩

theorem Emitted.count {f : IdField} {evs : List Ev} {parts : List (List FAction)} (h : Emitted f evs parts) {i : Nat}
    {l : List FAction} {e : Ev} (hi : parts[i]? = some l) (he : evs[i]? = some e) (x : Subject) :
    having (discS x) l = times f e x ∧ ∀ a ∈ l, a.disc = some (discS x) → a.path = includePath (evs.take i) := by
  obtain ⟨e', own, h1, h2, rfl⟩ := h.event hi
  rw [he] at h1; cases h1
  refine ⟨by rw [having_append, having_checks, own_count h2]; omega, fun a ha hd => ?_⟩
  rcases List.mem_append.mp ha with ha | ha
  · obtain ⟨raw, _, _, rfl⟩ := mem_checks ha
    cases hd
  · exact (own_path h2 a ha).1

theorem mem_take_at {α : Type} {L : List (List α)} {i : Nat} {c : α} (h : c ∈ (L.take i).flatten) :
    ∃ j l, j < i ∧ L[j]? = some l ∧ c ∈ l := by
  obtain ⟨l, hl, hc⟩ := List.mem_flatten.mp h
  obtain ⟨j, hj⟩ := List.mem_iff_getElem?.mp hl
  rw [List.getElem?_take] at hj
  split at hj
  · exact ⟨j, l, by assumption, hj, hc⟩
  · cases hj

theorem mem_drop_at {α : Type} {L : List (List α)} {i : Nat} {c : α} (h : c ∈ (L.drop (i + 1)).flatten) :
    ∃ j l, i < j ∧ L[j]? = some l ∧ c ∈ l := by
  obtain ⟨l, hl, hc⟩ := List.mem_flatten.mp h
  obtain ⟨j, hj⟩ := List.mem_iff_getElem?.mp hl
  rw [List.getElem?_drop] at hj
  exact ⟨i + 1 + j, l, by omega, hj, hc⟩

theorem having_pos {d : Disc} {l : List FAction} : 0 < having d l ↔ ∃ a ∈ l, a.disc = some d := by
  simp [having, List.countP_pos_iff]

theorem having_one {d : Disc} {l : List FAction} (h : having d l = 1) :
    ∃ q1 a q2, l = q1 ++ a :: q2 ∧ a.disc = some d ∧ ∀ c, c ∈ q1 ∨ c ∈ q2 → c.disc ≠ some d := by
  obtain ⟨a, ha, hd⟩ := having_pos.mp (by omega : 0 < having d l)
  obtain ⟨q1, q2, rfl⟩ := List.append_of_mem ha
  refine ⟨q1, a, q2, rfl, hd, fun c hc hcd => ?_⟩
  have h1 : having d (a :: q2) = having d q2 + 1 := by
    unfold having
    rw [List.countP_cons_of_pos]
    simpa using hd
  rw [having_append, h1] at h
  rcases hc with hc | hc
  · have := having_pos.mpr ⟨c, hc, hcd⟩; omega
  · have := having_pos.mpr ⟨c, hc, hcd⟩; omega

/-- An outermost event and the one action. -/
theorem outermost_alone {f : IdField} {evs : List Ev} {parts : List (List FAction)} (h : Emitted f evs parts) {i : Nat}
    {x : Subject} (ho : Outermost f evs i x) :
    ∃ q1 a q2, parts[i]? = some (q1 ++ a :: q2)
      ∧ Alone parts.flatten (discS x) ((parts.take i).flatten ++ q1) a (q2 ++ (parts.drop (i + 1)).flatten) := by
  obtain ⟨⟨e, he, ht⟩, hoth⟩ := ho
  obtain ⟨own, h1, h2⟩ := h.at_ i e he
  obtain ⟨hc, hpath⟩ := h.count h2 he x
  rw [ht] at hc
  obtain ⟨q1, a, q2, hq, ha, hnone⟩ := having_one hc
  rw [hq] at h2 hpath
  refine ⟨q1, a, q2, h2, ?_, ha, ?_⟩
  · rw [flatten_at parts i _ h2]; simp
  · have hap : a.path = includePath (evs.take i) := hpath a (by simp) ha
    have other : ∀ j l c, j ≠ i → parts[j]? = some l → c ∈ l → c.disc = some (discS x) → Within a.path c.path := by
      intro j l c hj hl hcl hcd
      obtain ⟨e', own', h3, h4, h5⟩ := h.event hl
      obtain ⟨h6, h7⟩ := h.count hl h3 x
      rw [hap, h7 c hcl hcd]
      exact hoth j e' h3 (by rw [← h6]; exact having_pos.mpr ⟨c, hcl, hcd⟩) hj
    rintro c (hc | hc) hcd
    · rcases List.mem_append.mp hc with hc | hc
      · obtain ⟨j, l, hj, hl, hcl⟩ := mem_take_at hc
        exact other j l c (by omega) hl hcl hcd
      · exact absurd hcd (hnone c (.inl hc))
    · rcases List.mem_append.mp hc with hc | hc
      · exact absurd hcd (hnone c (.inr hc))
      · obtain ⟨j, l, hj, hl, hcl⟩ := mem_drop_at hc
        exact other j l c (by omega) hl hcl hcd

theorem alone_outermost {f : IdField} {evs : List Ev} {parts : List (List FAction)} (h : Emitted f evs parts)
    {x : Subject} {P : List FAction} {a : FAction} {S : List FAction} (ha : Alone parts.flatten (discS x) P a S) :
    ∃ i, Outermost f evs i x := by
  obtain ⟨h1, h2, h3⟩ := ha
  obtain ⟨i, q1, q2, h4, h5, h6⟩ := flatten_split parts P a S h1
  obtain ⟨e, own, he, _, _⟩ := h.event h4
  obtain ⟨hc, hpath⟩ := h.count h4 he x
  have hap := hpath a (by simp) h2
  refine ⟨i, ⟨e, he, ?_⟩, ?_⟩
  · rw [← hc]
    have hz : ∀ q, (∀ c ∈ q, c ∈ P ∨ c ∈ S) → (∀ c ∈ q, c ∈ q1 ++ a :: q2) → having (discS x) q = 0 := by
      intro q hq hq'
      cases hh : having (discS x) q with
      | zero => rfl
      | succ n =>
        obtain ⟨c, hcq, hcd⟩ := having_pos.mp (by omega : 0 < having (discS x) q)
        have h7 := h3 c (hq c hcq) hcd
        rw [hap, hpath c (hq' c hcq) hcd] at h7
        exact absurd rfl h7.2
    have hz1 := hz q1 (fun c hc => .inl (by rw [h5]; simp [hc])) (fun c hc => by simp [hc])
    have hz2 := hz q2 (fun c hc => .inr (by rw [h6]; simp [hc])) (fun c hc => by simp [hc])
    have h1 : having (discS x) (a :: q2) = having (discS x) q2 + 1 := by
      unfold having
      rw [List.countP_cons_of_pos]
      simpa using h2
    rw [having_append, h1, hz1, hz2]
  · intro j e' hj ht hne
    obtain ⟨own', h7, h8⟩ := h.at_ j e' hj
    obtain ⟨h9, h10⟩ := h.count h8 hj x
    obtain ⟨c, hcl, hcd⟩ := having_pos.mp (by rw [h9]; exact ht)
    rw [← hap, ← h10 c hcl hcd]
    refine h3 c ?_ hcd
    rcases Nat.lt_or_gt_of_ne hne with hlt | hgt
    · left
      rw [h5]
      refine List.mem_append_left _ (List.mem_flatten.mpr ⟨_, List.mem_of_getElem? (i := j) ?_, hcl⟩)
      rw [List.getElem?_take, if_pos hlt]; exact h8
    · right
      rw [h6]
      refine List.mem_append_right _ (List.mem_flatten.mpr ⟨_, List.mem_of_getElem? (i := j - (i + 1)) ?_, hcl⟩)
      rw [List.getElem?_drop, show i + 1 + (j - (i + 1)) = j by omega]; exact h8

theorem settled_iff {f : IdField} {evs : List Ev} {parts : List (List FAction)} (h : Emitted f evs parts) :
    Unambiguous f evs ↔ NoConflict parts.flatten := by
  rw [noConflict_alone]
  have hmem : ∀ x, (∃ e ∈ evs, 0 < times f e x) ↔ ∃ a ∈ parts.flatten, a.disc = some (discS x) := by
    intro x
    constructor
    · rintro ⟨e, he, ht⟩
      obtain ⟨i, hi⟩ := List.mem_iff_getElem?.mp he
      obtain ⟨own, _, h2⟩ := h.at_ i e hi
      obtain ⟨h9, _⟩ := h.count h2 hi x
      obtain ⟨c, hcl, hcd⟩ := having_pos.mp (by rw [h9]; exact ht)
      exact ⟨c, List.mem_flatten.mpr ⟨_, List.mem_of_getElem? h2, hcl⟩, hcd⟩
    · rintro ⟨a, ha, hd⟩
      obtain ⟨l, hl, hal⟩ := List.mem_flatten.mp ha
      obtain ⟨i, hi⟩ := List.mem_iff_getElem?.mp hl
      obtain ⟨e, own, he, _, _⟩ := h.event hi
      obtain ⟨h9, _⟩ := h.count hi he x
      exact ⟨e, List.mem_of_getElem? he, by rw [← h9]; exact having_pos.mpr ⟨a, hal, hd⟩⟩
  constructor
  · intro hs d hd
    obtain ⟨x, rfl⟩ := discS_surj d
    obtain ⟨i, hi⟩ := hs x ((hmem x).mpr hd)
    obtain ⟨q1, a, q2, _, h3⟩ := outermost_alone h hi
    exact ⟨_, a, _, h3⟩
  · intro hn x hx
    obtain ⟨P, a, S, h3⟩ := hn (discS x) ((hmem x).mp hx)
    exact alone_outermost h h3

/-! ## The two rounds -/

/-- The actions of the first round. -/
def firstRound (l : List FAction) : List FAction := l.filter fun a => wins l a && a.order == 0

/-- The actions of the second round. -/
def secondRound (l : List FAction) : List FAction := l.filter fun a => wins l a && a.order != 0

theorem emitted_orders {f : IdField} {evs : List Ev} {parts : List (List FAction)} (h : Emitted f evs parts) (a : FAction)
    (ha : a ∈ parts.flatten) : a.order = 0 ∨ a.order = 9999999 := by
  obtain ⟨l, hl, hal⟩ := List.mem_flatten.mp ha
  obtain ⟨i, hi⟩ := List.mem_iff_getElem?.mp hl
  obtain ⟨e, own, _, h2, rfl⟩ := h.event hi
  rcases List.mem_append.mp hal with hal | hal
  · obtain ⟨raw, _, _, rfl⟩ := mem_checks hal
    exact .inr rfl
  · exact .inl (own_path h2 a hal).2

/-- The actions to carry out. -/
theorem emitted_resolve {f : IdField} {evs : List Ev} {parts : List (List FAction)} (h : Emitted f evs parts) :
    (Unambiguous f evs → resolveConflicts parts.flatten = some (firstRound parts.flatten ++ secondRound parts.flatten))
    ∧ (¬ Unambiguous f evs → resolveConflicts parts.flatten = none) := by
  have := resolve_ok parts.flatten 9999999 (emitted_orders h)
  rw [settled_iff h]
  exact this

theorem mem_secondRound {f : IdField} {evs : List Ev} {parts : List (List FAction)} (h : Emitted f evs parts) (a : FAction) :
    a ∈ secondRound parts.flatten ↔
      ∃ i e raw, evs[i]? = some e ∧ Given e raw ∧ f.strip raw ≠ "zope.Public"
        ∧ a = ⟨none, 9999999, includePath (evs.take i), .check (f.strip raw)⟩ := by
  unfold secondRound
  rw [List.mem_filter]
  simp only [Bool.and_eq_true, bne_iff_ne, ne_eq]
  constructor
  · rintro ⟨ha, _, ho⟩
    obtain ⟨l, hl, hal⟩ := List.mem_flatten.mp ha
    obtain ⟨i, hi⟩ := List.mem_iff_getElem?.mp hl
    obtain ⟨e, own, he, h2, rfl⟩ := h.event hi
    rcases List.mem_append.mp hal with hal | hal
    · obtain ⟨raw, h3, h4, h5⟩ := mem_checks hal
      exact ⟨i, e, raw, he, h3, h4, h5⟩
    · exact absurd (own_path h2 a hal).2 ho
  · rintro ⟨i, e, raw, he, hg, hne, rfl⟩
    obtain ⟨own, _, h2⟩ := h.at_ i e he
    refine ⟨List.mem_flatten.mpr ⟨_, List.mem_of_getElem? h2, List.mem_append_left _ ?_⟩, (wins_iff _ _).mpr (.inl rfl), by simp⟩
    refine List.mem_flatMap.mpr ⟨raw, (mem_givens e raw).mpr hg, ?_⟩
    unfold checkOf
    rw [if_neg hne]; simp

theorem mem_firstRound {f : IdField} {evs : List Ev} {parts : List (List FAction)} (h : Emitted f evs parts) (a : FAction)
    (ha : a ∈ firstRound parts.flatten) : ∃ i e own, evs[i]? = some e ∧ Own f (evs.take i) e own ∧ a ∈ own := by
  unfold firstRound at ha
  rw [List.mem_filter] at ha
  simp only [Bool.and_eq_true, beq_iff_eq] at ha
  obtain ⟨ha, _, ho⟩ := ha
  obtain ⟨l, hl, hal⟩ := List.mem_flatten.mp ha
  obtain ⟨i, hi⟩ := List.mem_iff_getElem?.mp hl
  obtain ⟨e, own, he, h2, rfl⟩ := h.event hi
  rcases List.mem_append.mp hal with hal | hal
  · obtain ⟨raw, _, _, rfl⟩ := mem_checks hal
    cases ho
  · exact ⟨i, e, own, he, h2, hal⟩

/-- The one action of an outermost event is carried out in the first round, and no other with the
discriminator is. -/
theorem alone_firstRound {l : List FAction} {d : Disc} {P : List FAction} {a : FAction} {S : List FAction}
    (h : Alone l d P a S) (ho : a.order = 0) :
    ∃ P' S', firstRound l = P' ++ a :: S' ∧ (∀ c ∈ P', c ∈ P) ∧ (∀ c ∈ S', c ∈ S)
      ∧ ∀ c, c ∈ P' ∨ c ∈ S' → c.disc ≠ some d := by
  obtain ⟨w1, w2⟩ := alone_wins h
  refine ⟨P.filter fun a => wins l a && a.order == 0, S.filter fun a => wins l a && a.order == 0, ?_,
    fun c hc => (List.mem_filter.mp hc).1, fun c hc => (List.mem_filter.mp hc).1, ?_⟩
  · have hpos : (wins l a && a.order == 0) = true := by simp [w1, ho]
    unfold firstRound
    conv => lhs; arg 2; rw [h.1]
    rw [List.filter_append, List.filter_cons, if_pos hpos]
  · rintro c (hc | hc) hd
    · obtain ⟨h1, h2⟩ := List.mem_filter.mp hc
      rw [w2 c (.inl h1) hd] at h2; cases h2
    · obtain ⟨h1, h2⟩ := List.mem_filter.mp hc
      rw [w2 c (.inr h1) hd] at h2; cases h2

/-! ## Carrying out -/

/-- Carrying out a declaration leaves the policy alone. -/
theorem pres_action (P : St A → Prop) (hn : ∀ s n d r, P s → P { s with nextId := n, dicts := d, reg := r }) (a : Action) :
    Pres P (runAction a : M A Unit) := by
  have hd : ∀ d n p, Pres P (dictSet d n p : M A Unit) := fun d n p => .modify fun s h => hn s s.nextId _ s.reg h
  have hnew : ∀ d, Pres P (newDict d : M A Nat) := fun d =>
    .bind .get fun s => .bind (.modify fun s h => hn s (s.nextId + 1) _ s.reg h) fun _ => .pure _
  have hchk : ∀ g st, Pres P (newChecker g st : M A Val) := fun g st =>
    .bind .get fun s => .bind (.modify fun s h => hn s (s.nextId + 1) s.dicts s.reg h) fun _ => .pure _
  have hdef : ∀ t c, Pres P (defineChecker t c : M A Unit) := by
    intro t c
    unfold defineChecker
    split
    · exact .throw _
    · exact .bind .get fun s => .ite (.throw _) (.modify fun s h => hn s s.nextId s.dicts _ h)
  have hgoc : ∀ t, Pres P (getOrCreate t : M A Val) := by
    intro t
    unfold getOrCreate
    split
    · exact .throw _
    · exact .bind .get fun s => .ite
        (.bind (hnew _) fun g => .bind (hnew _) fun st => .bind (hchk _ _) fun c => .bind (hdef _ _) fun _ => .pure _)
        (.pure _)
  have hcopy : ∀ src dst l, Pres P (copyNames src dst l : M A Unit) := by
    intro src dst l
    induction l with
    | nil => exact .pure _
    | cons n r ih =>
      unfold copyNames
      refine .bind .get fun s => ?_
      split
      · exact .bind (hd _ _ _) fun _ => ih
      · exact .throw _
  cases a with
  | mimic k kl =>
    show Pres P (protectLikeUnto k.val kl.val)
    unfold protectLikeUnto
    split
    · exact .pure _
    · refine .bind .get fun s => ?_
      unfold likeFrom
      refine .ite (.pure _) ?_
      split
      · exact .throw _
      · unfold likeCopy
        refine .bind (hgoc _) fun c => ?_
        split
        · exact .throw _
        · exact .bind (.bind .get fun s => hcopy _ _ _) fun _ => .bind .get fun s => hcopy _ _ _
  | name k n p =>
    show Pres P (protectName k.val n p)
    unfold protectName
    refine .bind (hgoc _) fun c => ?_
    split
    · exact hd _ _ _
    · exact .throw _
  | setAttr k n p =>
    show Pres P (protectSetAttribute k.val n p)
    unfold protectSetAttribute
    refine .bind (hgoc _) fun c => ?_
    split
    · exact hd _ _ _
    · exact .throw _
  | classImplements => exact .pure _
  | provideInterface => exact .pure _

/-- The declarations among the calls. -/
def declares : List Call → List Action
  | [] => []
  | .declare a :: r => a :: declares r
  | _ :: r => declares r

theorem declares_append (l l' : List Call) : declares (l ++ l') = declares l ++ declares l' := by
  induction l with
  | nil => rfl
  | cons c r ih => cases c <;> simp [declares, ih]

theorem mem_declares (l : List Call) (a : Action) : a ∈ declares l ↔ .declare a ∈ l := by
  induction l with
  | nil => simp [declares]
  | cons c r ih => cases c <;> simp [declares, ih]

/-- The policy after the calls. -/
def policyAfter : List Call → Policy → Policy
  | [], p => p
  | .policy q :: r, _ => policyAfter r q
  | _ :: r, p => policyAfter r p

theorem policyAfter_append (l l' : List Call) (p : Policy) : policyAfter (l ++ l') p = policyAfter l' (policyAfter l p) := by
  induction l generalizing p with
  | nil => rfl
  | cons c r ih => cases c <;> simp [policyAfter, ih]

theorem policyAfter_none (l : List Call) (p : Policy) (h : ∀ q, .policy q ∉ l) : policyAfter l p = p := by
  induction l with
  | nil => rfl
  | cons c r ih =>
    have ih := ih (fun q hq => h q (by simp [hq]))
    cases c with
    | policy q => exact absurd (by simp) (h q)
    | _ => exact ih

theorem runCalls_append (x x1 : Site A) (l l' : List Call) (h : runCalls x l = (.ok (), x1)) :
    runCalls x (l ++ l') = runCalls x1 l' := by
  induction l generalizing x with
  | nil => cases h; rfl
  | cons c r ih =>
    simp only [runCalls, List.cons_append] at h ⊢
    rcases hc : runCall x c with ⟨o, x2⟩
    rw [hc] at h
    cases o with
    | ok u => exact ih x2 h
    | err e => cases h
    | diverge => cases h

/-- The classes and modules the declarations are about. -/
def CallsReady (l : List Call) (s : St A) : Prop :=
  ∀ a, .declare a ∈ l → (∀ k, target a = some k → Dicts s k ∧ Apart s k) ∧ ∀ k, source a = some k → Dicts s k

/-- What the first round leaves. -/
structure AfterCalls (l : List Call) (x x' : Site A) : Prop where
  heap : Heap x'.state
  apart : ∀ k, Apart x.state k → Apart x'.state k
  dicts : ∀ k, Dicts x.state k → Dicts x'.state k
  store : storeOf x'.state = actStores (declares l) (storeOf x.state)
  policy : x'.state.policy = policyAfter l x.state.policy
  utilities : ∀ u, Registered x'.utilities u ↔ Registered x.utilities u ∨ .define u ∈ l

theorem run_first (l : List Call) (x : Site A) (hh : Heap x.state) (hr : CallsReady l x.state)
    (hn : ∀ id, .check id ∉ l) : ∃ x', runCalls x l = (.ok (), x') ∧ AfterCalls l x x' := by
  induction l generalizing x with
  | nil => exact ⟨x, rfl, hh, fun _ h => h, fun _ h => h, rfl, rfl, by simp⟩
  | cons c r ih =>
    have hnr : ∀ id, .check id ∉ r := fun id h => hn id (by simp [h])
    cases c with
    | define id =>
      obtain ⟨x', h1, h2⟩ := ih { x with utilities := (id, 0) :: x.utilities } hh (fun a ha => hr a (by simp [ha])) hnr
      refine ⟨x', h1, h2.heap, h2.apart, h2.dicts, h2.store, h2.policy, fun u => ?_⟩
      rw [h2.utilities u]
      simp only [Registered, List.mem_cons, Prod.mk.injEq, Call.define.injEq]
      constructor
      · rintro (⟨v, ⟨rfl, _⟩ | h⟩ | h)
        · exact .inr (.inl rfl)
        · exact .inl ⟨v, h⟩
        · exact .inr (.inr h)
      · rintro (⟨v, h⟩ | rfl | h)
        · exact .inl ⟨v, .inr h⟩
        · exact .inl ⟨0, .inl ⟨rfl, rfl⟩⟩
        · exact .inr h
    | check id => exact absurd (by simp) (hn id)
    | policy p =>
      obtain ⟨x', h1, h2⟩ := ih { x with state := { x.state with policy := p } } hh (fun a ha => hr a (by simp [ha])) hnr
      refine ⟨x', h1, h2.heap, h2.apart, h2.dicts, h2.store, h2.policy, fun u => ?_⟩
      rw [h2.utilities u]
      simp
    | declare a =>
      obtain ⟨ht, hs⟩ := hr a (by simp)
      obtain ⟨a1, a2, a3, a4, a5⟩ := action_step a x.state hh ht hs
      have hp := pres_action (fun s : St A => s.policy = x.state.policy) (fun _ _ _ _ h => h) a x.state rfl
      obtain ⟨x', h1, h2⟩ := ih { x with state := (runAction a x.state).2 } a2
        (fun b hb => by
          obtain ⟨b1, b2⟩ := hr b (by simp [hb])
          exact ⟨fun k hk => ⟨a4 k (b1 k hk).1, a3 k (b1 k hk).2⟩, fun k hk => a4 k (b2 k hk)⟩) hnr
      refine ⟨x', ?_, h2.heap, fun k h => h2.apart k (a3 k h), fun k h => h2.dicts k (a4 k h), ?_, ?_, fun u => ?_⟩
      · simp only [runCalls, runCall, a1]
        exact h1
      · rw [h2.store, a5]; rfl
      · rw [h2.policy, hp]; rfl
      · rw [h2.utilities u]; simp

theorem run_second (l : List Call) (x : Site A) (hc : ∀ c ∈ l, ∃ id, c = .check id) :
    ((∀ id, .check id ∈ l → Registered x.utilities id) → runCalls x l = (.ok (), x))
    ∧ ((∃ id, .check id ∈ l ∧ ¬ Registered x.utilities id) → runCalls x l = (.err .valueError, x)) := by
  induction l with
  | nil => exact ⟨fun _ => rfl, by simp⟩
  | cons c r ih =>
    obtain ⟨i1, i2⟩ := ih (fun c hc' => hc c (by simp [hc']))
    obtain ⟨id, rfl⟩ := hc c (by simp)
    obtain ⟨k1, k2⟩ := checkDefined_iff x.utilities id
    by_cases hreg : Registered x.utilities id
    · have hrun : runCalls x (.check id :: r) = runCalls x r := by
        simp only [runCalls, runCall, k1.mpr hreg]
      rw [hrun]
      refine ⟨fun h => i1 fun id' h' => h id' (by simp [h']), ?_⟩
      rintro ⟨id', h1, h2⟩
      refine i2 ⟨id', ?_, h2⟩
      rcases List.mem_cons.mp h1 with h | h
      · cases h; exact absurd hreg h2
      · exact h
    · have hrun : runCalls x (.check id :: r) = (.err .valueError, x) := by
        simp only [runCalls, runCall, k2.mpr hreg]
      rw [hrun]
      exact ⟨fun h => absurd (h id (by simp)) hreg, fun _ => rfl⟩

end ZS.Props
