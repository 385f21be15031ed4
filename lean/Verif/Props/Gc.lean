import Verif.Lemmas.Gc

/-!
# C67: Garbage collection of proxies and checkers
-/

namespace ZS.Props
open ZS.Spec ZS.Gc

theorem inv_empty : Inv [] empty :=
  ⟨List.nodup_nil, fun _ h => (nomatch h), fun _ => rfl, fun _ h => absurd h (Nat.lt_irrefl 0), fun _ h => (nomatch h), fun _ h => (nomatch h)⟩

theorem has_iff {h : Heap} {o : Nat} : h.has o = true ↔ ∃ b, (o, b) ∈ h.objs := lookup_isSome

theorem inv_init {h : Heap} (hI : Inv [] h) {o g : Nat} {g0 s0 s : Option Nat} (hb : (o, .checker g0 s0) ∈ h.objs)
    (hg : h.has g) (hs : ∀ x ∈ s.toList, h.has x) : Inv [] (step h (.initChecker o g s)) := by
  have hbody : h.body o = some (.checker g0 s0) := mem_lookup hI.nodup hb
  simp only [step, hbody]
  rw [if_pos ⟨hg, hs⟩]
  have hr : ∀ k ∈ refs (.checker (some g) s), ∃ c, (k, c) ∈ h.objs := by
    intro k hk
    rcases List.mem_cons.mp hk with rfl | hk
    · exact has_iff.mp hg
    · exact has_iff.mp (hs k hk)
  have h1 := hI.replace (b' := .checker (some g) s) hb hr (fun h => nomatch h)
  refine ⟨h1.nodup, h1.bound, fun k => ?_, h1.alive, h1.positive, h1.older⟩
  have h2 := h1.counted k
  rw [List.append_nil] at h2
  rw [List.count_nil]
  show _ = h.ext k + (h.lost k + (g0.toList ++ s0.toList).count k) + _ + 0
  have h3 : ((incref (refs (.checker (some g) s)) h).store o (.checker (some g) s)).ext k = h.ext k := rfl
  have h4 : ((incref (refs (.checker (some g) s)) h).store o (.checker (some g) s)).lost k = h.lost k := rfl
  rw [h3, h4] at h2
  have h5 : (refs (.checker g0 s0)) = g0.toList ++ s0.toList := rfl
  rw [h5] at h2
  have h6 : ∀ l, inRefs { (incref (g :: s.toList) h).store o (.checker (some g) s) with lost := l } k
      = inRefs ((incref (refs (.checker (some g) s)) h).store o (.checker (some g) s)) k := fun _ => rfl
  rw [h6]
  have h7 : ((incref (g :: s.toList) h).store o (.checker (some g) s)).rc k
      = ((incref (refs (.checker (some g) s)) h).store o (.checker (some g) s)).rc k := rfl
  rw [h7]
  omega

theorem inv_dropped {h : Heap} (hI : Inv [] h) {o : Nat} (hh : 0 < h.ext o) :
    Inv ([o] ++ []) { h with ext := put h.ext o (h.ext o - 1) } := by
  refine ⟨hI.nodup, hI.bound, fun k => ?_, hI.alive, hI.positive, hI.older⟩
  have h2 := hI.counted k
  rw [List.count_nil] at h2
  show h.rc k = put h.ext o (h.ext o - 1) k + h.lost k + inRefs h k + ([o] ++ []).count k
  rw [List.append_nil]
  unfold put
  by_cases hk : k = o
  · subst hk; rw [if_pos rfl, List.count_cons_self, List.count_nil]; omega
  · rw [if_neg hk, List.count_cons_of_ne (fun h => hk h.symm), List.count_nil]; omega

theorem inv_step {h : Heap} (hI : Inv [] h) (op : Op) : Inv [] (step h op) := by
  cases op with
  | newProxy o c =>
    simp only [step]
    split
    · rename_i hh
      refine hI.make (List.Perm.refl _) fun k hk => ?_
      simp only [List.mem_cons, List.not_mem_nil, or_false] at hk
      rcases hk with rfl | rfl
      · exact has_iff.mp hh.1
      · exact has_iff.mp hh.2
    · exact hI
  | newChecker => exact hI.make (List.Perm.refl _) fun k hk => nomatch hk
  | newFixed rs =>
    simp only [step]
    split
    · rename_i hh; exact hI.make (List.Perm.refl _) fun k hk => has_iff.mp (hh k hk)
    · exact hI
  | newOther => exact hI.make (List.Perm.refl _) fun k hk => nomatch hk
  | setRefs o rs =>
    simp only [step]
    split
    · rename_i old hb
      split
      · rename_i hh
        have h1 := hI.replace (b' := .other rs) (lookup_mem hb) (fun k hk => has_iff.mp (hh k hk)) (fun h => nomatch h)
        exact (release_after h1).inv
      · exact hI
    · exact hI
  | initChecker o g s =>
    cases hb : h.body o with
    | none => simp only [step, hb]; exact hI
    | some b =>
      cases b with
      | checker g0 s0 =>
        by_cases hh : h.has g ∧ ∀ x ∈ s.toList, h.has x
        · exact inv_init hI (lookup_mem hb) hh.1 hh.2
        · simp only [step, hb, if_neg hh]; exact hI
      | _ => simp only [step, hb]; exact hI
  | take o =>
    simp only [step]
    split
    · rename_i hh
      obtain ⟨b, hb⟩ := has_iff.mp hh
      have h1 := hI.held hb
      refine ⟨h1.nodup, h1.bound, fun k => ?_, h1.alive, h1.positive, h1.older⟩
      have h2 := hI.counted k
      rw [List.count_nil] at h2 ⊢
      show h.rc k + [o].count k = put h.ext o (h.ext o + 1) k + h.lost k + inRefs h k + 0
      unfold put
      by_cases hk : k = o
      · subst hk; rw [if_pos rfl, List.count_cons_self, List.count_nil]; omega
      · rw [if_neg hk, List.count_cons_of_ne (fun h => hk h.symm), List.count_nil]; omega
    · exact hI
  | drop o =>
    simp only [step]
    split
    · rename_i hh
      exact (release_after (inv_dropped hI hh)).inv
    · exact hI
  | collect among =>
    simp only [step]
    split
    · exact (deleteGarbage_swept _ h hI).inv
    · exact hI

theorem inv_run : ∀ (ops : List Op) (h : Heap), Inv [] h → Inv [] (run ops h)
  | [], _, hI => hI
  | op :: ops, _, hI => inv_run ops _ (inv_step hI op)

theorem arises_inv {h : Heap} (ha : Arises h) : Inv [] h := by
  obtain ⟨ops, rfl⟩ := ha
  exact inv_run ops _ inv_empty

/-! ## The claims -/

/-- **C67** Whatever proxies, checkers and other objects are made and given up, and whenever the
collector runs: an object exists as long as anybody has a reference to it, from outside or from an
existing object, and not longer unless such a reference was forgotten. -/
theorem C67_alive (h : Heap) (ha : Arises h) (o : Nat) :
    (∃ b, (o, b) ∈ h.objs) ↔ Rooted h o ∨ ∃ i, RefersTo h i o := by
  have hI := (arises_inv ha)
  have h1 := hI.counted o
  rw [List.count_nil] at h1
  rw [← inRefs_pos]
  unfold Rooted
  constructor
  · rintro ⟨b, hb⟩
    have := hI.positive _ hb
    simp only at this
    omega
  · intro h2
    exact hI.alive o (by omega)

/-- **C67** The reference counts are the numbers of references. -/
theorem C67_counts (h : Heap) (ha : Arises h) (o : Nat) :
    h.rc o = h.ext o + h.lost o + (h.objs.map fun e => (refs e.2).count o).sum :=
  (arises_inv ha).counted o

/-- **C67** A collection, among whichever objects, leaves alone every object that can be reached. -/
theorem C67_reachable_stays (h : Heap) (ha : Arises h) (among : List Nat) (i : Nat) (b : Body) (hm : (i, b) ∈ h.objs)
    (hr : Reachable h i) : (i, b) ∈ (step h (.collect among)).objs := by
  simp only [step]
  split
  · rename_i hh
    refine (deleteGarbage_swept _ h (arises_inv ha)).kept _ (reachable_supported h) ?_ _ hm hr
    intro k hk hrk
    exact ((deduceUnreachable_iff (arises_inv ha) hh.1 (fun o ho => has_iff.mp (hh.2 o ho)) k).mp hk).2 (reachable_needed hrk)
  · exact hm

/-- **C67** Of the objects examined, those that cannot be reached, not even from an object that is not
examined, are gone after a collection.  This although proxies have no `tp_clear`. -/
theorem C67_collected (h : Heap) (ha : Arises h) (among : List Nat) (hd : among.Nodup)
    (hx : ∀ o ∈ among, ∃ b, (o, b) ∈ h.objs) (o : Nat) (ho : o ∈ among) (hn : ¬ Needed h among o) :
    ∀ b, (o, b) ∉ (step h (.collect among)).objs := by
  have hstep : step h (.collect among) = deleteGarbage (deduceUnreachable h among) h := by
    simp only [step]
    rw [if_pos ⟨hd, fun o ho => has_iff.mpr (hx o ho)⟩]
    rfl
  rw [hstep]
  have hs := deleteGarbage_swept (deduceUnreachable h among) h (arises_inv ha)
  have hG := deduceUnreachable_iff (arises_inv ha) hd hx
  generalize deleteGarbage (deduceUnreachable h among) h = h' at hs
  -- the youngest object that should be gone but is there has a referrer of the same kind
  have key : ∀ n o, h'.next ≤ o + n → o ∈ among → ¬ Needed h among o → ∀ b, (o, b) ∉ h'.objs := by
    intro n
    induction n with
    | zero =>
      intro o hle _ _ b hb
      have := hs.inv.bound _ hb
      simp only at this
      omega
    | succ n ih =>
      intro o hle ho hn b hb
      have hpos := hs.inv.positive _ hb
      have hcnt := hs.inv.counted o
      rw [List.count_nil, hs.ext, hs.lost] at hcnt
      simp only at hpos
      have hroot : ¬ Rooted h o := fun hr => hn (.root hr)
      unfold Rooted at hroot
      obtain ⟨i, c, hc, hoc⟩ := inRefs_pos.mp (show 0 < inRefs h' o by omega)
      have hold : (i, c) ∈ h.objs := by
        rcases hs.sub i c hc with h1 | h1
        · exact h1
        · rw [h1.1] at hoc; cases hoc
      have hi : i ∈ among := Classical.byContradiction fun hi => hn (.old hi ⟨c, hold, hoc⟩)
      have hin : ¬ Needed h among i := fun hni => hn (.step hni ⟨c, hold, hoc⟩)
      rcases hs.cleared i ((hG i).mpr ⟨hi, hin⟩) c hc with hf | hf
      · have := hs.inv.older _ hc hf o hoc
        simp only at this
        exact ih i (by omega) hi hin c hc
      · rw [hf] at hoc; cases hoc
  exact key h'.next o (by omega) ho hn

/-- **C67** A collection among all objects leaves exactly those that can be reached. -/
theorem C67_full (h : Heap) (ha : Arises h) (i : Nat) :
    (∃ b, (i, b) ∈ (step h (.collect (h.objs.map Prod.fst))).objs) ↔ (∃ b, (i, b) ∈ h.objs) ∧ Reachable h i := by
  have hI := (arises_inv ha)
  have hx : ∀ o ∈ h.objs.map Prod.fst, ∃ b, (o, b) ∈ h.objs := by
    intro o ho
    obtain ⟨e, he, rfl⟩ := List.mem_map.mp ho
    exact ⟨e.2, he⟩
  constructor
  · rintro ⟨b, hb⟩
    have hex : ∃ b, (i, b) ∈ h.objs := by
      have hs := deleteGarbage_swept (deduceUnreachable h (h.objs.map Prod.fst)) h hI
      have hstep : step h (.collect (h.objs.map Prod.fst)) = deleteGarbage (deduceUnreachable h (h.objs.map Prod.fst)) h := by
        simp only [step]
        rw [if_pos ⟨hI.nodup, fun o ho => has_iff.mpr (hx o ho)⟩]
        rfl
      rw [hstep] at hb
      have hrc := hs.inv.positive _ hb
      -- it is counted afterwards by somebody who counted before
      have hcnt := hs.inv.counted i
      rw [List.count_nil, hs.ext, hs.lost] at hcnt
      have h0 := hI.counted i
      rw [List.count_nil] at h0
      apply hI.alive
      simp only at hrc
      by_cases hin : 0 < inRefs (deleteGarbage (deduceUnreachable h (h.objs.map Prod.fst)) h) i
      · obtain ⟨k, c, hc, hic⟩ := inRefs_pos.mp hin
        rcases hs.sub k c hc with h1 | h1
        · have : 0 < inRefs h i := inRefs_pos.mpr ⟨k, c, h1, hic⟩
          omega
        · rw [h1.1] at hic; cases hic
      · omega
    refine ⟨hex, Classical.byContradiction fun hnr => ?_⟩
    obtain ⟨c, hc⟩ := hex
    refine C67_collected h ha _ hI.nodup hx i (List.mem_map_of_mem (f := Prod.fst) hc) (fun hn => hnr ?_) b hb
    clear hb hc hnr
    induction hn with
    | root h1 => exact .root h1
    | old h1 h2 =>
      obtain ⟨c, h3, _⟩ := h2
      exact absurd (List.mem_map_of_mem (f := Prod.fst) h3) h1
    | step _ h2 ih => exact .step ih h2
  · rintro ⟨⟨b, hb⟩, hr⟩
    exact ⟨b, C67_reachable_stays h ha _ i b hb hr⟩

theorem lost_step (h : Heap) (hI : Inv [] h) (op : Op) (o : Nat) : h.lost o ≤ (step h op).lost o := by
  cases op with
  | newProxy => simp only [step]; split <;> exact Nat.le_refl _
  | newChecker => exact Nat.le_refl _
  | newFixed => simp only [step]; split <;> exact Nat.le_refl _
  | newOther => exact Nat.le_refl _
  | take => simp only [step]; split <;> exact Nat.le_refl _
  | initChecker k g s =>
    simp only [step]
    split
    · split
      · exact Nat.le_add_right _ _
      · exact Nat.le_refl _
    · exact Nat.le_refl _
  | setRefs k rs =>
    simp only [step]
    split
    · rename_i old hb
      split
      · rename_i hh
        have h1 := hI.replace (b' := .other rs) (lookup_mem hb) (fun k hk => has_iff.mp (hh k hk)) (fun h => nomatch h)
        exact Nat.le_of_eq (congrFun (release_after h1).lost o).symm
      · exact Nat.le_refl _
    · exact Nat.le_refl _
  | drop k =>
    simp only [step]
    split
    · rename_i hh
      exact Nat.le_of_eq (congrFun (release_after (inv_dropped hI hh)).lost o).symm
    · exact Nat.le_refl _
  | collect among =>
    simp only [step]
    split
    · exact Nat.le_of_eq (by rw [collect, (deleteGarbage_swept _ h hI).lost])
    · exact Nat.le_refl _

/-- **C67** Calling `__init__` of a checker that has its dictionaries forgets about them: whatever happens
later, they are never freed. -/
theorem C67_init_leaks (h : Heap) (ha : Arises h) (o g : Nat) (s g0 s0 : Option Nat) (hb : (o, .checker g0 s0) ∈ h.objs)
    (hg : ∃ b, (g, b) ∈ h.objs) (hs : ∀ x ∈ s, ∃ b, (x, b) ∈ h.objs) (d : Nat) (hd : g0 = some d ∨ s0 = some d) (ops : List Op) :
    ∃ b, (d, b) ∈ (run ops (step h (.initChecker o g s))).objs := by
  have hI := (arises_inv ha)
  have hg' : h.has g := has_iff.mpr hg
  have hs' : ∀ x ∈ s.toList, h.has x := fun x hx => has_iff.mpr (hs x (by simpa using hx))
  have hbody : h.body o = some (.checker g0 s0) := mem_lookup hI.nodup hb
  have hlost : 0 < (step h (.initChecker o g s)).lost d := by
    simp only [step, hbody]
    rw [if_pos ⟨hg', hs'⟩]
    show 0 < h.lost d + (g0.toList ++ s0.toList).count d
    have : d ∈ g0.toList ++ s0.toList := by
      rcases hd with rfl | rfl
      · exact List.mem_append.mpr (.inl (by simp))
      · exact List.mem_append.mpr (.inr (by simp))
    have := List.count_pos_iff.mpr this
    omega
  have hI1 := inv_step hI (.initChecker o g s)
  generalize step h (.initChecker o g s) = h1 at hlost hI1
  induction ops generalizing h1 with
  | nil =>
    refine hI1.alive d ?_
    have := hI1.counted d
    show 0 < h1.rc d
    omega
  | cons op ops ih => exact ih (step h1 op) (Nat.lt_of_lt_of_le hlost (lost_step h1 hI1 op d)) (inv_step hI1 op)

/-- **C67** `gc.get_referrers` finds proxies and other objects by what they refer to, but never a checker:
`Checker_traverse` overlooks the positive answer of the visiting function. -/
theorem C67_referrers (h : Heap) (ha : Arises h) (target : Nat) (among : List Nat) (i : Nat) :
    i ∈ getReferrers h target among ↔
      i ∈ among ∧ ∃ b, (i, b) ∈ h.objs ∧ target ∈ refs b ∧ ∀ g s, b ≠ .checker g s := by
  have hothers : ∀ l, (othersTraverse (referrersVisit target) l ()).1 ≠ 0 ↔ target ∈ l := by
    intro l
    induction l with
    | nil => simp [othersTraverse]
    | cons o l ih =>
      simp only [othersTraverse, referrersVisit]
      by_cases ho : o = target
      · subst ho; simp
      · simp only [ho, if_false, List.mem_cons]
        rw [if_neg (by simp)]
        constructor
        · exact fun h => .inr (ih.mp h)
        · rintro (h | h)
          · exact absurd h.symm ho
          · exact ih.mpr h
  have hone : ∀ b, (traverse b (referrersVisit target) ()).1 ≠ 0 ↔ target ∈ refs b ∧ ∀ g s, b ≠ .checker g s := by
    intro b
    cases b with
    | proxy o c =>
      cases o <;> cases c <;> simp [traverse, proxyTraverse, visitField, referrersVisit, refs]
      · split <;> simp_all [eq_comm]
      · split <;> simp_all [eq_comm]
      · rename_i o c
        by_cases h1 : o = target <;> by_cases h2 : c = target <;> simp_all [eq_comm]
    | checker g s =>
      have : (traverse (.checker g s) (referrersVisit target) ()).1 = 0 := by
        have hv : ∀ o, ((referrersVisit target o ()).1 < 0) = False := by
          intro o; unfold referrersVisit; split <;> simp
        cases g <;> cases s <;> simp [traverse, checkerTraverse, visitField, hv]
      simp [this]
    | fixed l => simp only [traverse, refs]; rw [hothers]; simp
    | other l => simp only [traverse, refs]; rw [hothers]; simp
  unfold getReferrers
  rw [List.mem_filter]
  refine and_congr_right fun _ => ?_
  cases hb : h.body i with
  | none =>
    simp only [Bool.false_eq_true, false_iff]
    rintro ⟨b, hm, _⟩
    have := mem_lookup (arises_inv ha).nodup hm
    rw [Heap.body] at hb
    rw [hb] at this
    cases this
  | some b =>
    simp only [decide_eq_true_eq]
    rw [hone]
    constructor
    · exact fun h => ⟨b, lookup_mem hb, h⟩
    · rintro ⟨b', hm, h⟩
      rw [mem_unique (arises_inv ha).nodup (lookup_mem hb) hm]
      exact h

/-- The fields of the objects. -/
def contents (h : Heap) : List (Nat × Body) := h.objs

/-- **C67** That a proxy is never pointed at something else is needed: `zope.proxy.setProxiedObject` can
make a proxy refer to itself, and as its type has no `tp_clear`, no collection frees it. -/
theorem C67_setProxied : ∃ ops : List Op, ∃ p,
    let h := step (setProxied (run ops empty) p p) (.drop p)
    (∃ b, (p, b) ∈ h.objs) ∧ ¬ Reachable h p ∧ (∃ b, (p, b) ∈ (step h (.collect (h.objs.map Prod.fst))).objs) := by
  refine ⟨[.newOther, .newChecker, .newProxy 0 1], 2, ⟨_, List.mem_cons_self⟩, ?_, ⟨.proxy (some 2) (some 1), by decide⟩⟩
  have key : ∀ o, Reachable (step (setProxied (run [.newOther, .newChecker, .newProxy 0 1] empty) 2 2) (.drop 2)) o → o ≠ 2 := by
    intro o ho
    induction ho with
    | @root o h1 =>
      rintro rfl
      revert h1
      unfold Rooted
      decide
    | @step i o _ h1 ih =>
      rintro rfl
      obtain ⟨b, h2, h3⟩ := h1
      have : ∀ e ∈ (step (setProxied (run [.newOther, .newChecker, .newProxy 0 1] empty) 2 2) (.drop 2)).objs, 2 ∈ refs e.2 → e.1 = 2 := by
        decide
      exact ih (this _ h2 h3)
  exact fun h => key 2 h rfl

/-! ## A case -/

namespace Ring

/-- A checker with its dictionaries, an object, a proxy of it, and the object refers to the proxy; a tuple has
the proxy and the checker.  Then everything but the first dictionary is given up. -/
def ops : List Op :=
  [.newOther, .newOther, .newChecker, .initChecker 2 0 (some 1), .newOther, .newProxy 3 2, .newFixed [4, 2], .setRefs 3 [4, 5],
   .setRefs 0 [2], .drop 1, .drop 2, .drop 3, .drop 4, .drop 5]

def heap : Heap := run ops empty

theorem arises : Arises heap := ⟨ops, rfl⟩

/-- The first dictionary is held and leads to the checker, which leads to the second; object, proxy and
tuple form a cycle that nothing leads to, and are collected. -/
example : contents heap = [(5, .fixed [4, 2]), (4, .proxy (some 3) (some 2)), (3, .other [4, 5]), (2, .checker (some 0) (some 1)),
      (1, .other []), (0, .other [2])]
    ∧ heap.rc 2 = 3 ∧ contents (step heap (.collect [0, 1, 2, 3, 4, 5])) = [(2, .checker (some 0) (some 1)), (1, .other []), (0, .other [2])]
    ∧ (step heap (.collect [0, 1, 2, 3, 4, 5])).rc 2 = 1
    ∧ contents (step heap (.collect [4, 5])) = contents heap
    ∧ contents (step (run [.drop 0] heap) (.collect [0, 1, 2, 3, 4, 5])) = [] := by decide

example : getReferrers heap 3 [0, 1, 2, 3, 4, 5] = [4] ∧ getReferrers heap 2 [0, 1, 2, 3, 4, 5] = [0, 4, 5]
    ∧ getReferrers heap 1 [0, 1, 2, 3, 4, 5] = [] := by decide

/-- A second `__init__` of the checker, with another dictionary, and nobody holds any of them: the first
two remain all the same. -/
example : contents (step (run [.newOther, .initChecker 2 6 none, .drop 0, .drop 6] heap) (.collect [0, 1, 2, 3, 4, 5, 6]))
      = [(6, .other []), (2, .checker (some 6) none), (1, .other []), (0, .other [2])]
    ∧ (2, .checker (some 0) (some 1)) ∈ (run [.newOther] heap).objs ∧ (∃ b, (6, b) ∈ (run [.newOther] heap).objs) := by
  exact ⟨by decide, by decide, _, List.mem_cons_self⟩

end Ring

end ZS.Props
