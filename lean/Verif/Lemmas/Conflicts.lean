import Verif.Model.File

/-!
# Resolving conflicts
-/

namespace ZS.Props

/-! ## Sorting -/

section
variable {α : Type} (le : α → α → Bool)

theorem insertBy_perm (x : α) (l : List α) : (insertBy le x l).Perm (x :: l) := by
  induction l with
  | nil => exact .refl _
  | cons y r ih =>
    unfold insertBy
    split
    · exact .refl _
    · exact (List.Perm.cons y ih).trans (List.Perm.swap x y r)

theorem sortBy_perm (l : List α) : (sortBy le l).Perm l := by
  induction l with
  | nil => exact .refl _
  | cons x r ih => exact (insertBy_perm le x _).trans (List.Perm.cons x ih)

theorem sortBy_pairwise (total : ∀ a b, le a b = true ∨ le b a = true)
    (trans : ∀ a b c, le a b = true → le b c = true → le a c = true) (l : List α) :
    (sortBy le l).Pairwise (fun a b => le a b = true) := by
  have ins : ∀ x (l : List α), l.Pairwise (fun a b => le a b = true) →
      (insertBy le x l).Pairwise (fun a b => le a b = true) := by
    intro x l
    induction l with
    | nil => intro _; simp [insertBy]
    | cons y r ih =>
      intro h
      unfold insertBy
      obtain ⟨h1, h2⟩ := List.pairwise_cons.mp h
      split
      · next hxy =>
        refine List.pairwise_cons.mpr ⟨fun z hz => ?_, h⟩
        rcases List.mem_cons.mp hz with rfl | hz
        · exact hxy
        · exact trans _ _ _ hxy (h1 z hz)
      · next hxy =>
        refine List.pairwise_cons.mpr ⟨fun z hz => ?_, ih h2⟩
        rcases List.mem_cons.mp ((insertBy_perm le x r).mem_iff.mp hz) with rfl | hz
        · exact (total z y).resolve_left hxy
        · exact h1 z hz
  induction l with
  | nil => exact .nil
  | cons x r ih => exact ins x _ ih

end

/-! ## Comparing -/

theorem string_total (a b : String) : a = b ∨ a < b ∨ b < a := by
  by_cases h : a = b
  · exact .inl h
  · rcases String.le_total a b with h1 | h1
    · exact .inr (.inl (Std.lt_of_le_of_ne h1 h))
    · exact .inr (.inr (Std.lt_of_le_of_ne h1 (Ne.symm h)))

theorem pathLe_refl (a : List String) : pathLe a a = true := by
  induction a with
  | nil => rfl
  | cons x r ih => simp [pathLe, ih]

theorem pathLe_total (a b : List String) : pathLe a b = true ∨ pathLe b a = true := by
  induction a generalizing b with
  | nil => exact .inl rfl
  | cons x r ih =>
    cases b with
    | nil => exact .inr rfl
    | cons y s =>
      unfold pathLe
      by_cases h : x = y
      · rw [if_pos h, if_pos h.symm]; exact ih s
      · rw [if_neg h, if_neg (Ne.symm h)]
        simp only [decide_eq_true_eq]
        exact (string_total x y).resolve_left h

theorem pathLe_antisymm (a b : List String) (h1 : pathLe a b = true) (h2 : pathLe b a = true) : a = b := by
  induction a generalizing b with
  | nil =>
    cases b with
    | nil => rfl
    | cons y s => cases h2
  | cons x r ih =>
    cases b with
    | nil => cases h1
    | cons y s =>
      unfold pathLe at h1 h2
      by_cases h : x = y
      · rw [if_pos h] at h1
        rw [if_pos h.symm] at h2
        rw [h, ih s h1 h2]
      · rw [if_neg h] at h1
        rw [if_neg (Ne.symm h)] at h2
        simp only [decide_eq_true_eq] at h1 h2
        exact absurd h1 (String.lt_asymm h2)

theorem pathLe_trans (a b c : List String) (h1 : pathLe a b = true) (h2 : pathLe b c = true) : pathLe a c = true := by
  induction a generalizing b c with
  | nil => rfl
  | cons x r ih =>
    cases b with
    | nil => cases h1
    | cons y s =>
      cases c with
      | nil => cases h2
      | cons z t =>
        unfold pathLe at h1 h2 ⊢
        by_cases hxy : x = y
        · subst hxy
          rw [if_pos rfl] at h1
          by_cases hxz : x = z
          · rw [if_pos hxz] at h2 ⊢; exact ih s t h1 h2
          · rw [if_neg hxz] at h2 ⊢; exact h2
        · rw [if_neg hxy] at h1
          by_cases hyz : y = z
          · subst hyz; rw [if_neg hxy]; exact h1
          · rw [if_neg hyz] at h2
            simp only [decide_eq_true_eq] at h1 h2
            have h3 := Std.lt_trans h1 h2
            rw [if_neg (fun h => by subst h; exact String.lt_asymm h1 h2)]
            simpa using h3

theorem pathLe_prefix (a b : List String) (h : a <+: b) : pathLe a b = true := by
  induction a generalizing b with
  | nil => rfl
  | cons x r ih =>
    cases b with
    | nil => simp at h
    | cons y s =>
      obtain ⟨he, h'⟩ := List.cons_prefix_cons.mp h
      unfold pathLe
      rw [if_pos he]; exact ih s h'

theorem byOrder_total (a b : Info) : byOrder a b = true ∨ byOrder b a = true := by
  unfold byOrder
  by_cases h : a.1.order = b.1.order
  · rw [if_pos h, if_pos h.symm]; simp only [decide_eq_true_eq]; omega
  · rw [if_neg h, if_neg (Ne.symm h)]; simp only [decide_eq_true_eq]; omega

theorem byOrder_trans (a b c : Info) (h1 : byOrder a b = true) (h2 : byOrder b c = true) : byOrder a c = true := by
  unfold byOrder at *
  split at h1 <;> split at h2 <;> split <;> simp only [decide_eq_true_eq] at * <;> omega

theorem byPath_total (a b : Info) : byPath a b = true ∨ byPath b a = true := by
  unfold byPath
  by_cases h : a.1.path = b.1.path
  · rw [if_pos h, if_pos h.symm]; exact byOrder_total a b
  · rw [if_neg h, if_neg (Ne.symm h)]; exact pathLe_total _ _

theorem byPath_pathLe {a b : Info} (h : byPath a b = true) : pathLe a.1.path b.1.path = true := by
  unfold byPath at h
  by_cases he : a.1.path = b.1.path
  · rw [he]; exact pathLe_refl _
  · rw [if_neg he] at h; exact h

theorem byPath_trans (a b c : Info) (h1 : byPath a b = true) (h2 : byPath b c = true) : byPath a c = true := by
  have h3 := pathLe_trans _ _ _ (byPath_pathLe h1) (byPath_pathLe h2)
  by_cases hac : a.1.path = c.1.path
  · have hab : a.1.path = b.1.path :=
      pathLe_antisymm _ _ (byPath_pathLe h1) (by rw [hac]; exact byPath_pathLe h2)
    unfold byPath at *
    rw [if_pos hab] at h1
    rw [if_pos (hab.symm.trans hac)] at h2
    rw [if_pos hac]
    exact byOrder_trans a b c h1 h2
  · unfold byPath
    rw [if_neg hac]; exact h3

/-! ## Groups -/

/-- Of the actions with its discriminator, this one's path is a prefix of all paths. -/
def wins (l : List FAction) (a : FAction) : Bool :=
  a.disc.isNone || l.all fun b => !(b.disc == a.disc) || a.path.isPrefixOf b.path

theorem wins_iff (l : List FAction) (a : FAction) :
    wins l a = true ↔ a.disc = none ∨ ∀ b ∈ l, b.disc = a.disc → a.path <+: b.path := by
  unfold wins
  cases h : a.disc with
  | none => simp
  | some d =>
    simp only [Option.isNone_some, Bool.false_or, List.all_eq_true, Bool.or_eq_true, Bool.not_eq_true',
      List.isPrefixOf_iff_prefix, reduceCtorEq, false_or]
    constructor
    · intro h1 b hb hd
      rcases h1 b hb with h2 | h2
      · rw [hd] at h2; simp at h2
      · exact h2
    · intro h1 b hb
      by_cases hd : b.disc = some d
      · exact .inr (h1 b hb hd)
      · exact .inl (by simpa using hd)

/-- The group has one action with a path that is a proper prefix of all other paths. -/
def Resolved (g : List Info) (base : Info) : Prop :=
  base ∈ g ∧ ∀ b ∈ g, b ≠ base → base.1.path <+: b.1.path ∧ base.1.path ≠ b.1.path

theorem resolveGroup_spec (g : List Info) (hn : g.Nodup) (base : Info) :
    resolveGroup g = some base ↔ Resolved g base := by
  have hp := sortBy_perm byPath g
  have hs := sortBy_pairwise byPath byPath_total byPath_trans g
  unfold resolveGroup
  generalize sortBy byPath g = s at hp hs
  have hns := hp.nodup_iff.mpr hn
  cases s with
  | nil =>
    simp only [reduceCtorEq, false_iff]
    rintro ⟨h, _⟩
    exact absurd (hp.mem_iff.mpr h) (by simp)
  | cons a r =>
    obtain ⟨s1, s2⟩ := List.pairwise_cons.mp hs
    obtain ⟨n1, n2⟩ := List.nodup_cons.mp hns
    by_cases hany : (r.any fun b => !(a.1.path.isPrefixOf b.1.path) || b.1.path == a.1.path) = true
    · simp only [hany, if_true, reduceCtorEq, false_iff]
      rintro ⟨h1, h2⟩
      obtain ⟨b, hb, hbad⟩ := List.any_eq_true.mp hany
      have hb' : b ∈ g := hp.mem_iff.mp (List.mem_cons_of_mem _ hb)
      have hba : b ≠ a := fun h => n1 (h ▸ hb)
      have hbase : base = a := by
        rcases List.mem_cons.mp (hp.mem_iff.mpr h1) with h | h
        · exact h
        · have h3 := byPath_pathLe (s1 base h)
          have hne : a ≠ base := fun h' => n1 (h' ▸ h)
          obtain ⟨h4, h5⟩ := h2 a (hp.mem_iff.mp (by simp)) hne
          exact absurd (pathLe_antisymm _ _ (pathLe_prefix _ _ h4) h3) h5
      subst hbase
      obtain ⟨h4, h5⟩ := h2 b hb' hba
      simp only [Bool.or_eq_true, Bool.not_eq_true', beq_iff_eq] at hbad
      rcases hbad with h6 | h6
      · rw [List.isPrefixOf_iff_prefix.mpr h4] at h6; cases h6
      · exact h5 h6.symm
    · simp only [hany, Bool.false_eq_true, if_false, Option.some.injEq]
      have hgood : ∀ b ∈ r, a.1.path <+: b.1.path ∧ a.1.path ≠ b.1.path := by
        intro b hb
        have h3 : (!(a.1.path.isPrefixOf b.1.path) || b.1.path == a.1.path) = false := by
          cases h4 : (!(a.1.path.isPrefixOf b.1.path) || b.1.path == a.1.path) with
          | false => rfl
          | true => exact absurd (List.any_eq_true.mpr ⟨b, hb, h4⟩) hany
        simp only [Bool.or_eq_false_iff, Bool.not_eq_false', List.isPrefixOf_iff_prefix] at h3
        exact ⟨h3.1, fun h => by rw [h] at h3; simp at h3⟩
      have hra : Resolved g a := by
        refine ⟨hp.mem_iff.mp (by simp), fun b hb hne => ?_⟩
        rcases List.mem_cons.mp (hp.mem_iff.mpr hb) with h | h
        · exact absurd h hne
        · exact hgood b h
      constructor
      · rintro rfl; exact hra
      · rintro ⟨h1, h2⟩
        by_cases he : a = base
        · exact he
        · obtain ⟨h3, h4⟩ := h2 a hra.1 he
          obtain ⟨h5, _⟩ := hra.2 base h1 (Ne.symm he)
          exact absurd (pathLe_antisymm _ _ (pathLe_prefix _ _ h3) (pathLe_prefix _ _ h5)) h4

theorem mem_discriminators (l : List FAction) (d : Disc) : d ∈ discriminators l ↔ ∃ a ∈ l, a.disc = some d := by
  induction l with
  | nil => simp [discriminators]
  | cons a r ih =>
    unfold discriminators
    cases h : a.disc with
    | none => simp [ih, h]
    | some d' =>
      simp only [List.mem_cons, List.mem_filter, ih, decide_eq_true_eq, exists_eq_or_imp, h, Option.some.injEq]
      constructor
      · rintro (rfl | ⟨h1, _⟩)
        · exact .inl rfl
        · exact .inr h1
      · rintro (h1 | h1)
        · exact .inl h1.symm
        · by_cases hd : d = d'
          · exact .inl hd
          · exact .inr ⟨h1, by simpa using hd⟩

theorem discriminators_nodup (l : List FAction) : (discriminators l).Nodup := by
  induction l with
  | nil => exact .nil
  | cons a r ih =>
    unfold discriminators
    cases a.disc with
    | none => exact ih
    | some d =>
      refine List.nodup_cons.mpr ⟨?_, ih.filter _⟩
      simp

theorem resolveGroups_spec (infos : List Info) (hn : infos.Nodup) (ds : List Disc) (hd : ds.Nodup) :
    (∀ l, resolveGroups infos ds = some l →
      l.Nodup ∧ (∀ d ∈ ds, ∃ b, Resolved (infos.filter fun a => a.1.disc = some d) b)
      ∧ ∀ b, b ∈ l ↔ ∃ d ∈ ds, Resolved (infos.filter fun a => a.1.disc = some d) b)
    ∧ (resolveGroups infos ds = none → ∃ d ∈ ds, ∀ b, ¬ Resolved (infos.filter fun a => a.1.disc = some d) b) := by
  induction ds with
  | nil => simp [resolveGroups]
  | cons d r ih =>
    obtain ⟨d1, d2⟩ := List.nodup_cons.mp hd
    obtain ⟨i1, i2⟩ := ih d2
    have hsp := resolveGroup_spec (infos.filter fun a => a.1.disc = some d) (hn.filter _)
    unfold resolveGroups
    cases hg : resolveGroup (infos.filter fun a => a.1.disc = some d) with
    | none =>
      refine ⟨by simp, fun _ => ⟨d, by simp, fun b hb => ?_⟩⟩
      rw [(hsp b).mpr hb] at hg; cases hg
    | some base =>
      have hb := (hsp base).mp hg
      cases hr : resolveGroups infos r with
      | none =>
        refine ⟨by simp, fun _ => ?_⟩
        obtain ⟨d', hd', h⟩ := i2 hr
        exact ⟨d', by simp [hd'], h⟩
      | some l' =>
        refine ⟨?_, by simp⟩
        intro l hl
        simp only [Option.some.injEq] at hl
        subst hl
        obtain ⟨j1, j2, j3⟩ := i1 l' hr
        refine ⟨List.nodup_cons.mpr ⟨fun hm => ?_, j1⟩, ?_, fun b => ?_⟩
        · obtain ⟨d', hd', h⟩ := (j3 base).mp hm
          have e1 := (List.mem_filter.mp hb.1).2
          have e2 := (List.mem_filter.mp h.1).2
          simp only [decide_eq_true_eq] at e1 e2
          rw [e1] at e2; cases e2
          exact d1 hd'
        · intro d' hd'
          rcases List.mem_cons.mp hd' with rfl | hd'
          · exact ⟨base, hb⟩
          · exact j2 d' hd'
        · simp only [List.mem_cons, j3, exists_eq_or_imp]
          constructor
          · rintro (rfl | h)
            · exact .inl hb
            · exact .inr h
          · rintro (h | h)
            · exact .inl (by have := (hsp b).mpr h; rw [hg] at this; cases this; rfl)
            · exact .inr h

/-! ## All actions -/

/-- Every discriminator has an action that remains. -/
def NoConflict (l : List FAction) : Prop :=
  ∀ d, (∃ a ∈ l, a.disc = some d) → ∃ b, Resolved (l.zipIdx.filter fun a => a.1.disc = some d) b

theorem zipIdx_sorted (l : List FAction) (k : Nat) : (l.zipIdx k).Pairwise fun a b => a.2 < b.2 := by
  induction l generalizing k with
  | nil => exact .nil
  | cons a r ih =>
    refine List.pairwise_cons.mpr ⟨fun b hb => ?_, ih (k + 1)⟩
    have := List.le_snd_of_mem_zipIdx hb
    simp only at this ⊢; omega

theorem zipIdx_nodup (l : List FAction) : l.zipIdx.Nodup :=
  (zipIdx_sorted l 0).imp fun h he => by subst he; exact Nat.lt_irrefl _ h

theorem zipIdx_inj {l : List FAction} {a b : Info} (ha : a ∈ l.zipIdx) (hb : b ∈ l.zipIdx) (h : a.2 = b.2) : a = b := by
  have h1 := List.mem_zipIdx_iff_getElem?.mp ha
  have h2 := List.mem_zipIdx_iff_getElem?.mp hb
  rw [h, h2] at h1
  exact Prod.ext (Option.some.inj h1).symm h

theorem fst_mem {l : List FAction} {a : Info} (ha : a ∈ l.zipIdx) : a.1 ∈ l := by
  have h1 := List.mem_zipIdx_iff_getElem?.mp ha
  exact List.mem_of_getElem? h1

theorem mem_fst {l : List FAction} {a : FAction} (ha : a ∈ l) : ∃ i, (a, i) ∈ l.zipIdx := by
  obtain ⟨i, h⟩ := List.mem_iff_getElem?.mp ha
  exact ⟨i, List.mem_zipIdx_iff_getElem?.mpr h⟩

theorem resolved_wins {l : List FAction} {d : Disc} {b : Info}
    (h : Resolved (l.zipIdx.filter fun a => a.1.disc = some d) b) (a : Info) (ha : a ∈ l.zipIdx) (hd : a.1.disc = some d) :
    wins l a.1 = true ↔ a = b := by
  have hb := List.mem_filter.mp h.1
  simp only [decide_eq_true_eq] at hb
  rw [wins_iff, hd]
  simp only [reduceCtorEq, false_or]
  constructor
  · intro hw
    by_cases he : a = b
    · exact he
    · obtain ⟨h1, h2⟩ := h.2 a (List.mem_filter.mpr ⟨ha, by simpa using hd⟩) he
      have h3 := hw b.1 (fst_mem hb.1) hb.2
      exact absurd (pathLe_antisymm _ _ (pathLe_prefix _ _ h1) (pathLe_prefix _ _ h3)) h2
  · rintro rfl c hc hcd
    obtain ⟨i, hi⟩ := mem_fst hc
    by_cases he : (c, i) = a
    · rw [← he]; exact List.prefix_refl _
    · exact (h.2 (c, i) (List.mem_filter.mpr ⟨hi, by simpa using hcd⟩) he).1

theorem map_filter_zipIdx (l : List FAction) (q : FAction → Bool) (k : Nat) :
    ((l.zipIdx k).filter fun a => q a.1).map (·.1) = l.filter q := by
  induction l generalizing k with
  | nil => rfl
  | cons a r ih =>
    rw [List.zipIdx_cons, List.filter_cons, List.filter_cons]
    cases h : q a
    · simpa using ih (k + 1)
    · simpa using ih (k + 1)

/-- Without a conflict those actions remain that win, in two rounds. -/
theorem resolve_ok (l : List FAction) (c : Nat) (ho : ∀ a ∈ l, a.order = 0 ∨ a.order = c) :
    (NoConflict l → resolveConflicts l = some (l.filter (fun a => wins l a && a.order == 0)
      ++ l.filter (fun a => wins l a && a.order != 0)))
    ∧ (¬ NoConflict l → resolveConflicts l = none) := by
  obtain ⟨g1, g2⟩ := resolveGroups_spec l.zipIdx (zipIdx_nodup l) (discriminators l) (discriminators_nodup l)
  cases hr : resolveGroups l.zipIdx (discriminators l) with
  | none =>
    obtain ⟨d, hd, h⟩ := g2 hr
    refine ⟨fun hnc => ?_, fun _ => by simp [resolveConflicts, hr]⟩
    obtain ⟨b, hb⟩ := hnc d ((mem_discriminators l d).mp hd)
    exact absurd hb (h b)
  | some bs =>
    obtain ⟨h1, h2, h3⟩ := g1 bs hr
    have hnc : NoConflict l := fun d hd => h2 d ((mem_discriminators l d).mpr hd)
    refine ⟨fun _ => ?_, fun h => absurd hnc h⟩
    have hrc : resolveConflicts l
        = some ((sortBy byOrder ((l.zipIdx.filter fun a => a.1.disc = none) ++ bs)).map (·.1)) := by
      simp only [resolveConflicts, hr]
    rw [hrc, Option.some.injEq]
    -- the actions that remain, before sorting
    have hmem : ∀ a, a ∈ (l.zipIdx.filter fun a => a.1.disc = none) ++ bs ↔ a ∈ l.zipIdx ∧ wins l a.1 = true := by
      intro a
      simp only [List.mem_append, List.mem_filter, decide_eq_true_eq, h3]
      constructor
      · rintro (⟨k1, k2⟩ | ⟨d, hd, k⟩)
        · exact ⟨k1, (wins_iff _ _).mpr (.inl k2)⟩
        · have := List.mem_filter.mp k.1
          simp only [decide_eq_true_eq] at this
          exact ⟨this.1, (resolved_wins k a this.1 this.2).mpr rfl⟩
      · rintro ⟨k1, k2⟩
        cases hd : a.1.disc with
        | none => exact .inl ⟨k1, rfl⟩
        | some d =>
          have hdm := (mem_discriminators l d).mpr ⟨a.1, fst_mem k1, hd⟩
          obtain ⟨b, hb⟩ := h2 d hdm
          exact .inr ⟨d, hdm, by rw [(resolved_wins hb a k1 hd).mp k2]; exact hb⟩
    have hnd : ((l.zipIdx.filter fun a => a.1.disc = none) ++ bs).Nodup := by
      refine List.nodup_append.mpr ⟨(zipIdx_nodup l).filter _, h1, fun a ha b hb hab => ?_⟩
      subst hab
      obtain ⟨d, _, k⟩ := (h3 a).mp hb
      have k1 := (List.mem_filter.mp k.1).2
      have k2 := (List.mem_filter.mp ha).2
      simp only [decide_eq_true_eq] at k1 k2
      rw [k1] at k2; cases k2
    -- the two rounds, with positions
    let L0 := l.zipIdx.filter fun a => wins l a.1 && a.1.order == 0
    let L1 := l.zipIdx.filter fun a => wins l a.1 && a.1.order != 0
    have hL : L0.map (·.1) ++ L1.map (·.1) = l.filter (fun a => wins l a && a.order == 0)
        ++ l.filter (fun a => wins l a && a.order != 0) := by
      rw [map_filter_zipIdx l (fun a => wins l a && a.order == 0) 0,
        map_filter_zipIdx l (fun a => wins l a && a.order != 0) 0]
    rw [← hL, ← List.map_append]
    congr 1
    have horder : ∀ a ∈ l.zipIdx, a.1.order = 0 ∨ a.1.order = c := fun a ha => ho a.1 (fst_mem ha)
    have hpw0 : L0.Pairwise (fun a b => byOrder a b = true) := by
      have : L0.Pairwise (fun a b : Info => a.2 < b.2) := (zipIdx_sorted l 0).filter _
      refine this.imp_of_mem fun {a b} ha hb hab => ?_
      have ha' := (List.mem_filter.mp ha).2
      have hb' := (List.mem_filter.mp hb).2
      simp only [Bool.and_eq_true, beq_iff_eq] at ha' hb'
      unfold byOrder
      rw [if_pos (by rw [ha'.2, hb'.2])]
      simp only [decide_eq_true_eq]; omega
    have hpw1 : L1.Pairwise (fun a b => byOrder a b = true) := by
      have : L1.Pairwise (fun a b : Info => a.2 < b.2) := (zipIdx_sorted l 0).filter _
      refine this.imp_of_mem fun {a b} ha hb hab => ?_
      have ha' := List.mem_filter.mp ha
      have hb' := List.mem_filter.mp hb
      simp only [Bool.and_eq_true, bne_iff_ne, ne_eq] at ha' hb'
      unfold byOrder
      rw [if_pos (by rw [(horder a ha'.1).resolve_left ha'.2.2, (horder b hb'.1).resolve_left hb'.2.2])]
      simp only [decide_eq_true_eq]; omega
    have hpw : (L0 ++ L1).Pairwise (fun a b => byOrder a b = true) := by
      refine List.pairwise_append.mpr ⟨hpw0, hpw1, fun a ha b hb => ?_⟩
      have ha' := List.mem_filter.mp ha
      have hb' := List.mem_filter.mp hb
      simp only [Bool.and_eq_true, beq_iff_eq, bne_iff_ne, ne_eq] at ha' hb'
      unfold byOrder
      rw [if_neg (by rw [ha'.2.2]; exact Ne.symm hb'.2.2)]
      simp only [decide_eq_true_eq]; omega
    have hndL : (L0 ++ L1).Nodup := by
      refine List.nodup_append.mpr ⟨(zipIdx_nodup l).filter _, (zipIdx_nodup l).filter _, fun a ha b hb hab => ?_⟩
      subst hab
      have ha' := (List.mem_filter.mp ha).2
      have hb' := (List.mem_filter.mp hb).2
      simp only [Bool.and_eq_true, beq_iff_eq, bne_iff_ne, ne_eq] at ha' hb'
      exact hb'.2 ha'.2
    have hperm : ((l.zipIdx.filter fun a => a.1.disc = none) ++ bs).Perm (L0 ++ L1) := by
      rw [List.perm_ext_iff_of_nodup hnd hndL]
      intro a
      rw [hmem a]
      simp only [L0, L1, List.mem_append, List.mem_filter, Bool.and_eq_true, beq_iff_eq, bne_iff_ne, ne_eq]
      constructor
      · rintro ⟨k1, k2⟩
        by_cases h0 : a.1.order = 0
        · exact .inl ⟨k1, k2, h0⟩
        · exact .inr ⟨k1, k2, h0⟩
      · rintro (⟨k1, k2, _⟩ | ⟨k1, k2, _⟩) <;> exact ⟨k1, k2⟩
    refine List.Perm.eq_of_pairwise (le := fun a b => byOrder a b = true) ?_
      (sortBy_pairwise byOrder byOrder_total byOrder_trans _) hpw ((sortBy_perm byOrder _).trans hperm)
    intro a b ha hb hab hba
    have ha' := ((hmem a).mp ((sortBy_perm byOrder _).mem_iff.mp ha)).1
    have hb' := ((hmem b).mp (hperm.mem_iff.mpr hb)).1
    refine zipIdx_inj ha' hb' ?_
    unfold byOrder at hab hba
    by_cases he : a.1.order = b.1.order
    · rw [if_pos he] at hab
      rw [if_pos he.symm] at hba
      simp only [decide_eq_true_eq] at hab hba; omega
    · rw [if_neg he] at hab
      rw [if_neg (Ne.symm he)] at hba
      simp only [decide_eq_true_eq] at hab hba; omega

end ZS.Props
