import Verif.Spec.Gc

/-!
# Counting references
-/

namespace ZS.Gc
open ZS.Spec

/-! ## Sums over the objects -/

/-- The sum of a quantity over the objects. -/
def total (f : Body → Nat) (l : List (Nat × Body)) : Nat := (l.map fun e => f e.2).sum

theorem total_cons (f : Body → Nat) (e : Nat × Body) (l : List (Nat × Body)) : total f (e :: l) = f e.2 + total f l := by
  simp [total]

theorem total_filter_out (o : Nat) : ∀ l : List (Nat × Body), o ∉ l.map Prod.fst →
    l.filter (fun e => e.1 ≠ o) = l := by
  intro l h
  rw [List.filter_eq_self]
  intro e he
  have : e.1 ≠ o := fun hc => h (hc ▸ List.mem_map_of_mem he)
  simpa using this

theorem total_remove (f : Body → Nat) (o : Nat) (b : Body) : ∀ l : List (Nat × Body), (l.map Prod.fst).Nodup → (o, b) ∈ l →
    total f (l.filter fun e => e.1 ≠ o) + f b = total f l := by
  intro l
  induction l with
  | nil => intro _ h; cases h
  | cons e l ih =>
    intro hn hm
    rw [List.map_cons, List.nodup_cons] at hn
    rcases List.mem_cons.mp hm with rfl | hm'
    · have h1 : (List.filter (fun e => decide (e.1 ≠ o)) ((o, b) :: l)) = l := by
        rw [List.filter_cons_of_neg (by simp)]
        exact total_filter_out o l hn.1
      rw [h1, total_cons]
      exact Nat.add_comm _ _
    · have hne : e.1 ≠ o := fun hc => hn.1 (hc ▸ List.mem_map_of_mem (f := Prod.fst) hm')
      rw [List.filter_cons_of_pos (by simpa using hne), total_cons, total_cons]
      have := ih hn.2 hm'
      omega

theorem store_out (o : Nat) (b : Body) : ∀ l : List (Nat × Body), o ∉ l.map Prod.fst →
    l.map (fun e => if e.1 = o then (o, b) else e) = l := by
  intro l h
  conv => rhs; rw [← List.map_id l]
  apply List.map_congr_left
  intro e he
  have : e.1 ≠ o := fun hc => h (hc ▸ List.mem_map_of_mem he)
  simp [this]

theorem total_store (f : Body → Nat) (o : Nat) (b b' : Body) : ∀ l : List (Nat × Body), (l.map Prod.fst).Nodup → (o, b) ∈ l →
    total f (l.map fun e => if e.1 = o then (o, b') else e) + f b = total f l + f b' := by
  intro l
  induction l with
  | nil => intro _ h; cases h
  | cons e l ih =>
    intro hn hm
    rw [List.map_cons, List.nodup_cons] at hn
    rw [List.map_cons, total_cons, total_cons]
    rcases List.mem_cons.mp hm with rfl | hm'
    · rw [store_out o b' l hn.1]
      simp
      omega
    · have hne : e.1 ≠ o := fun hc => hn.1 (hc ▸ List.mem_map_of_mem (f := Prod.fst) hm')
      have := ih hn.2 hm'
      simp [hne]
      omega

theorem store_keys (o : Nat) (b : Body) (l : List (Nat × Body)) :
    (l.map fun e => if e.1 = o then (o, b) else e).map Prod.fst = l.map Prod.fst := by
  rw [List.map_map]
  apply List.map_congr_left
  intro e _
  simp only [Function.comp]
  split <;> simp_all

theorem mem_store {o : Nat} {b : Body} {l : List (Nat × Body)} {e : Nat × Body} :
    e ∈ (l.map fun e => if e.1 = o then (o, b) else e) ↔ (e.1 ≠ o ∧ e ∈ l) ∨ (e = (o, b) ∧ o ∈ l.map Prod.fst) := by
  simp only [List.mem_map]
  constructor
  · rintro ⟨x, hx, rfl⟩
    by_cases h : x.1 = o
    · right; simp [h]; exact ⟨x.2, by rw [← h]; exact hx⟩
    · left; simp [h, hx]
  · rintro (⟨h, hm⟩ | ⟨rfl, x, hx, h⟩)
    · exact ⟨e, hm, by simp [h]⟩
    · exact ⟨x, hx, by simp [h]⟩

theorem total_pos {f : Body → Nat} {l : List (Nat × Body)} : 0 < total f l ↔ ∃ i b, (i, b) ∈ l ∧ 0 < f b := by
  induction l with
  | nil => simp [total]
  | cons e l ih =>
    rw [total_cons]
    constructor
    · intro h
      by_cases he : 0 < f e.2
      · exact ⟨e.1, e.2, List.mem_cons_self, he⟩
      · obtain ⟨i, b, h1, h2⟩ := ih.mp (by omega)
        exact ⟨i, b, List.mem_cons_of_mem _ h1, h2⟩
    · rintro ⟨i, b, h1, h2⟩
      rcases List.mem_cons.mp h1 with rfl | h1
      · simp only; omega
      · have := ih.mpr ⟨i, b, h1, h2⟩
        omega

/-! ## Looking objects up -/

theorem lookup_mem {o : Nat} {b : Body} {l : List (Nat × Body)} (h : l.lookup o = some b) : (o, b) ∈ l := by
  induction l with
  | nil => cases h
  | cons e l ih =>
    obtain ⟨k, v⟩ := e
    rw [List.lookup_cons] at h
    by_cases hk : o = k
    · subst hk; simp at h; subst h; exact List.mem_cons_self
    · have : (o == k) = false := by simpa using hk
      rw [this] at h
      exact List.mem_cons_of_mem _ (ih h)

theorem mem_lookup {o : Nat} {b : Body} {l : List (Nat × Body)} (hn : (l.map Prod.fst).Nodup) (h : (o, b) ∈ l) :
    l.lookup o = some b := by
  induction l with
  | nil => cases h
  | cons e l ih =>
    obtain ⟨k, v⟩ := e
    rw [List.map_cons, List.nodup_cons] at hn
    rw [List.lookup_cons]
    rcases List.mem_cons.mp h with h | h
    · cases h; simp
    · have hne : o ≠ k := by
        intro hc
        have hm : o ∈ l.map Prod.fst := List.mem_map_of_mem (f := Prod.fst) h
        rw [hc] at hm
        exact hn.1 hm
      have : (o == k) = false := by simpa using hne
      rw [this]
      exact ih hn.2 h

theorem lookup_isSome {o : Nat} {l : List (Nat × Body)} : (l.lookup o).isSome = true ↔ ∃ b, (o, b) ∈ l := by
  constructor
  · intro h
    obtain ⟨b, hb⟩ := Option.isSome_iff_exists.mp h
    exact ⟨b, lookup_mem hb⟩
  · rintro ⟨b, h⟩
    induction l with
    | nil => cases h
    | cons e l ih =>
      obtain ⟨k, v⟩ := e
      rw [List.lookup_cons]
      by_cases hk : o = k
      · subst hk; simp
      · have : (o == k) = false := by simpa using hk
        rw [this]
        rcases List.mem_cons.mp h with h | h
        · cases h; exact absurd rfl hk
        · exact ih h

theorem mem_unique {o : Nat} {b b' : Body} {l : List (Nat × Body)} (hn : (l.map Prod.fst).Nodup)
    (h : (o, b) ∈ l) (h' : (o, b') ∈ l) : b = b' := by
  have := mem_lookup hn h
  rw [mem_lookup hn h'] at this
  exact (Option.some.inj this).symm

/-! ## The functions of the types -/

theorem dealloc_perm (b : Body) : (dealloc b).Perm (refs b) := by
  cases b with
  | proxy o c =>
    cases o <;> cases c <;>
      simp [dealloc, proxyDealloc, proxyClear, clearField, refs]
    exact List.Perm.swap _ _ _
  | checker g s => cases g <;> cases s <;> simp [dealloc, checkerDealloc, checkerClear, clearField, refs]
  | fixed l => exact List.Perm.refl _
  | other l => exact List.Perm.refl _

/-- Immutable after creation, without `tp_clear`. -/
def Frozen : Body → Prop
  | .proxy _ _ => True
  | .fixed _ => True
  | _ => False

theorem clear_some {b b' : Body} {r : List Nat} (h : clear b = some (b', r)) : refs b' = [] ∧ r.Perm (refs b) ∧ ¬ Frozen b' := by
  cases b with
  | proxy o c => cases h
  | fixed l => cases h
  | other l => cases h; exact ⟨rfl, List.Perm.refl _, id⟩
  | checker g s =>
    cases g <;> cases s <;> simp [clear, checkerClear, clearField] at h <;> obtain ⟨rfl, rfl⟩ := h <;> simp [refs, Frozen]

theorem clear_none {b : Body} (h : clear b = none) : Frozen b := by
  cases b with
  | proxy o c => trivial
  | fixed l => trivial
  | other l => cases h
  | checker g s => cases g <;> cases s <;> cases h

/-- Visiting one after the other. -/
def fold {σ : Type} (visit : Visit σ) : List Nat → σ → σ
  | [], s => s
  | o :: os, s => fold visit os (visit o s).2

theorem fold_append {σ : Type} (visit : Visit σ) : ∀ (l l' : List Nat) (s : σ), fold visit (l ++ l') s = fold visit l' (fold visit l s)
  | [], _, _ => rfl
  | _ :: os, l', s => fold_append visit os l' _

theorem othersTraverse_zero {σ : Type} (visit : Visit σ) (hv : ∀ o s, (visit o s).1 = 0) :
    ∀ l s, othersTraverse visit l s = (0, fold visit l s)
  | [], _ => rfl
  | _ :: os, _ => by
    simp only [othersTraverse, hv, fold]
    exact othersTraverse_zero visit hv os _

theorem traverse_zero {σ : Type} (visit : Visit σ) (hv : ∀ o s, (visit o s).1 = 0) (b : Body) (s : σ) :
    traverse b visit s = (0, fold visit (refs b) s) := by
  cases b with
  | proxy o c => cases o <;> cases c <;> simp [traverse, proxyTraverse, visitField, refs, fold, hv]
  | checker g c => cases g <;> cases c <;> simp [traverse, checkerTraverse, visitField, refs, fold, hv]
  | fixed l => exact othersTraverse_zero visit hv l s
  | other l => exact othersTraverse_zero visit hv l s

/-! ## The counters -/

/-- References to an object from objects. -/
def inRefs (h : Heap) (o : Nat) : Nat := total (fun b => (refs b).count o) h.objs

theorem inRefs_pos {h : Heap} {o : Nat} : 0 < inRefs h o ↔ ∃ i, RefersTo h i o := by
  unfold inRefs
  rw [total_pos]
  simp only [List.count_pos_iff]
  rfl

/-- The counters are right, with some references still to be released. -/
structure Inv (pending : List Nat) (h : Heap) : Prop where
  nodup : (h.objs.map Prod.fst).Nodup
  bound : ∀ e ∈ h.objs, e.1 < h.next
  counted : ∀ o, h.rc o = h.ext o + h.lost o + inRefs h o + pending.count o
  alive : ∀ o, 0 < h.rc o → ∃ b, (o, b) ∈ h.objs
  positive : ∀ e ∈ h.objs, 0 < h.rc e.1
  older : ∀ e ∈ h.objs, Frozen e.2 → ∀ o ∈ refs e.2, o < e.1

/-- Each object of the set is held from outside or by one of the set. -/
def Supported (R : Nat → Prop) (h : Heap) : Prop :=
  ∀ o, R o → Rooted h o ∨ ∃ i b, R i ∧ (i, b) ∈ h.objs ∧ o ∈ refs b

theorem Inv.free {o : Nat} {os : List Nat} {h : Heap} {b : Body} (hI : Inv (o :: os) h) (hb : (o, b) ∈ h.objs) (h1 : h.rc o ≤ 1) :
    Inv (dealloc b ++ os) (h.free o) ∧ ¬ Rooted h o ∧ inRefs h o = 0 := by
  have hc := hI.counted o
  rw [List.count_cons_self] at hc
  have e0 : inRefs h o = 0 := by omega
  have hz : ∀ k, total (fun b => (refs b).count k) (h.objs.filter fun e => e.1 ≠ o) + (refs b).count k = inRefs h k :=
    fun k => total_remove _ o b h.objs hI.nodup hb
  refine ⟨⟨?_, ?_, ?_, ?_, ?_, ?_⟩, ?_, e0⟩
  · exact (List.filter_sublist.map Prod.fst).nodup hI.nodup
  · exact fun e he => hI.bound e (List.mem_filter.mp he).1
  · intro k
    have hk := hI.counted k
    have hzk := hz k
    have hp := (dealloc_perm b).count_eq k
    show put h.rc o 0 k = h.ext k + h.lost k + total (fun b => (refs b).count k) (h.objs.filter fun e => e.1 ≠ o) + (dealloc b ++ os).count k
    rw [List.count_append, hp]
    unfold put
    split
    · subst k
      rw [List.count_cons_self] at hk
      omega
    · rename_i hne
      rw [List.count_cons_of_ne (fun h => hne h.symm)] at hk
      omega
  · intro k hk
    have hk' : 0 < put h.rc o 0 k := hk
    unfold put at hk'
    split at hk'
    · omega
    · rename_i hne
      obtain ⟨b', hb'⟩ := hI.alive k hk'
      exact ⟨b', List.mem_filter.mpr ⟨hb', by simpa using hne⟩⟩
  · intro e he
    obtain ⟨he1, he2⟩ := List.mem_filter.mp he
    have hne : e.1 ≠ o := by simpa using he2
    show 0 < put h.rc o 0 e.1
    unfold put
    rw [if_neg hne]
    exact hI.positive e he1
  · exact fun e he => hI.older e (List.mem_filter.mp he).1
  · rintro (h2 | h2) <;> omega

theorem Inv.less {o : Nat} {os : List Nat} {h : Heap} (hI : Inv (o :: os) h) (h1 : ¬ h.rc o ≤ 1) :
    Inv os { h with rc := put h.rc o (h.rc o - 1) } := by
  refine ⟨hI.nodup, hI.bound, ?_, ?_, ?_, hI.older⟩
  · intro k
    have hk := hI.counted k
    show put h.rc o (h.rc o - 1) k = h.ext k + h.lost k + inRefs h k + os.count k
    unfold put
    split
    · subst k
      rw [List.count_cons_self] at hk
      omega
    · rename_i hne
      rw [List.count_cons_of_ne (fun h => hne h.symm)] at hk
      exact hk
  · intro k hk
    have hk' : 0 < put h.rc o (h.rc o - 1) k := hk
    apply hI.alive k
    unfold put at hk'
    split at hk'
    · subst k; omega
    · exact hk'
  · intro e he
    show 0 < put h.rc o (h.rc o - 1) e.1
    unfold put
    split
    · omega
    · exact hI.positive e he

/-- What a release leaves: fewer objects, unchanged, and all those that are supported. -/
structure After (rest : List Nat) (h h' : Heap) : Prop where
  inv : Inv rest h'
  ext : h'.ext = h.ext
  lost : h'.lost = h.lost
  next : h'.next = h.next
  sub : ∀ e ∈ h'.objs, e ∈ h.objs
  kept : ∀ R : Nat → Prop, Supported R h → ∀ e ∈ h.objs, R e.1 → e ∈ h'.objs

theorem releaseN_after (rest : List Nat) : ∀ (n : Nat) (os : List Nat) (h : Heap), Inv (os ++ rest) h → weight h.objs + os.length ≤ n →
    After rest h (releaseN n os h) := by
  intro n
  induction n with
  | zero =>
    intro os h hI hn
    have : os = [] := List.length_eq_zero_iff.mp (by omega)
    subst this
    exact ⟨hI, rfl, rfl, rfl, fun _ h => h, fun _ _ _ h _ => h⟩
  | succ n ih =>
    intro os h hI hn
    cases os with
    | nil => exact ⟨hI, rfl, rfl, rfl, fun _ h => h, fun _ _ _ h _ => h⟩
    | cons o os =>
      rw [releaseN]
      by_cases h1 : h.rc o ≤ 1
      · rw [if_pos h1]
        have hpos : 0 < h.rc o := by
          have := hI.counted o
          rw [List.cons_append, List.count_cons_self] at this
          omega
        obtain ⟨b, hb⟩ := hI.alive o hpos
        have hbody : h.body o = some b := mem_lookup hI.nodup hb
        rw [hbody]
        obtain ⟨hI', hroot, hin⟩ := Inv.free (os := os ++ rest) hI hb h1
        have hw : weight (h.free o).objs + (dealloc b).length = weight h.objs :=
          total_remove (fun b => (dealloc b).length) o b h.objs hI.nodup hb
        rw [List.length_cons] at hn
        rw [← List.append_assoc] at hI'
        have ha := ih (dealloc b ++ os) (h.free o) hI' (by rw [List.length_append]; omega)
        refine ⟨ha.inv, ha.ext, ha.lost, ha.next, fun e he => (List.mem_filter.mp (ha.sub e he)).1, ?_⟩
        intro R hR e he hRe
        have hno : ¬ R o := by
          intro hRo
          rcases hR o hRo with h2 | ⟨i, b', _, h3, h4⟩
          · exact hroot h2
          · have : 0 < inRefs h o := inRefs_pos.mpr ⟨i, b', h3, h4⟩
            omega
        have hmem : ∀ e ∈ h.objs, R e.1 → e ∈ (h.free o).objs := by
          intro e he hRe
          refine List.mem_filter.mpr ⟨he, ?_⟩
          have : e.1 ≠ o := fun hc => hno (hc ▸ hRe)
          simpa using this
        refine ha.kept R ?_ e (hmem e he hRe) hRe
        intro k hk
        rcases hR k hk with h2 | ⟨i, b', hi, h3, h4⟩
        · exact .inl h2
        · exact .inr ⟨i, b', hi, hmem _ h3 hi, h4⟩
      · rw [if_neg h1]
        have ha := ih os { h with rc := put h.rc o (h.rc o - 1) } (Inv.less (os := os ++ rest) hI h1)
          (by simp only [List.length_cons] at hn; simp only; omega)
        exact ⟨ha.inv, ha.ext, ha.lost, ha.next, ha.sub, ha.kept⟩

theorem release_after {os rest : List Nat} {h : Heap} (hI : Inv (os ++ rest) h) : After rest h (release os h) :=
  releaseN_after rest _ os h hI (Nat.le_refl _)

theorem After.supported {rest : List Nat} {h h' : Heap} (ha : After rest h h') {R : Nat → Prop} (hR : Supported R h) :
    Supported R h' := by
  intro o ho
  rcases hR o ho with h2 | ⟨i, b, hi, h3, h4⟩
  · left
    unfold Rooted at *
    rw [ha.ext, ha.lost]
    exact h2
  · exact .inr ⟨i, b, hi, ha.kept R hR _ h3 hi, h4⟩

/-! ## Changing the heap -/

theorem Inv.perm {l l' : List Nat} {h : Heap} (hI : Inv l h) (hp : l.Perm l') : Inv l' h :=
  ⟨hI.nodup, hI.bound, fun o => by rw [← hp.count_eq]; exact hI.counted o, hI.alive, hI.positive, hI.older⟩

theorem inRefs_store {h : Heap} {o : Nat} {b b' : Body} (hn : (h.objs.map Prod.fst).Nodup) (hb : (o, b) ∈ h.objs) (k : Nat) :
    inRefs (h.store o b') k + (refs b).count k = inRefs h k + (refs b').count k :=
  total_store _ o b b' h.objs hn hb

/-- The fields of an object are replaced, references to the new contents having been taken: those to the
old contents are to be released. -/
theorem Inv.replace {l : List Nat} {h : Heap} {o : Nat} {b b' : Body} (hI : Inv l h) (hb : (o, b) ∈ h.objs)
    (hr : ∀ k ∈ refs b', ∃ c, (k, c) ∈ h.objs) (hf : Frozen b' → ∀ k ∈ refs b', k < o) :
    Inv (refs b ++ l) ((incref (refs b') h).store o b') := by
  refine ⟨?_, ?_, ?_, ?_, ?_, ?_⟩
  · show ((h.objs.map _).map Prod.fst).Nodup
    rw [store_keys]
    exact hI.nodup
  · intro e he
    rcases mem_store.mp he with ⟨_, he⟩ | ⟨rfl, _⟩
    · exact hI.bound e he
    · exact hI.bound (o, b) hb
  · intro k
    have h1 := hI.counted k
    have h2 := inRefs_store (b' := b') hI.nodup hb k
    have h3 : inRefs ((incref (refs b') h).store o b') k = inRefs (h.store o b') k := rfl
    rw [h3, List.count_append]
    show h.rc k + (refs b').count k = h.ext k + h.lost k + inRefs (h.store o b') k + _
    omega
  · intro k hk
    have hk' : 0 < h.rc k + (refs b').count k := hk
    have hex : ∃ c, (k, c) ∈ h.objs := by
      by_cases h1 : 0 < h.rc k
      · exact hI.alive k h1
      · exact hr k (List.count_pos_iff.mp (by omega))
    obtain ⟨c, hc⟩ := hex
    by_cases hko : k = o
    · subst hko
      exact ⟨b', mem_store.mpr (.inr ⟨rfl, List.mem_map_of_mem (f := Prod.fst) hc⟩)⟩
    · exact ⟨c, mem_store.mpr (.inl ⟨hko, hc⟩)⟩
  · intro e he
    show 0 < h.rc e.1 + (refs b').count e.1
    have : 0 < h.rc e.1 := by
      rcases mem_store.mp he with ⟨_, he⟩ | ⟨rfl, _⟩
      · exact hI.positive e he
      · exact hI.positive (o, b) hb
    omega
  · intro e he hfr
    rcases mem_store.mp he with ⟨_, he⟩ | ⟨rfl, _⟩
    · exact hI.older e he hfr
    · exact hf hfr

theorem Inv.held {l : List Nat} {h : Heap} {o : Nat} {b : Body} (hI : Inv l h) (hb : (o, b) ∈ h.objs) : Inv (o :: l) (incref [o] h) := by
  refine ⟨hI.nodup, hI.bound, ?_, ?_, ?_, hI.older⟩
  · intro k
    have h1 := hI.counted k
    show h.rc k + [o].count k = h.ext k + h.lost k + inRefs h k + (o :: l).count k
    rw [show o :: l = [o] ++ l from rfl, List.count_append]
    omega
  · intro k hk
    have hk' : 0 < h.rc k + [o].count k := hk
    by_cases h1 : 0 < h.rc k
    · exact hI.alive k h1
    · have : k ∈ [o] := List.count_pos_iff.mp (by omega)
      rw [List.mem_singleton] at this
      subst this
      exact ⟨b, hb⟩
  · intro e he
    have := hI.positive e he
    show 0 < h.rc e.1 + [o].count e.1
    omega

theorem Inv.make {h : Heap} {b : Body} {rs : List Nat} (hI : Inv [] h) (he : rs.Perm (refs b)) (hr : ∀ k ∈ rs, ∃ c, (k, c) ∈ h.objs) :
    Inv [] (h.make b rs) := by
  have hnew : ∀ c, (h.next, c) ∉ h.objs := fun c hc => Nat.lt_irrefl _ (hI.bound _ hc)
  have hnr : h.next ∉ rs := fun hc => by obtain ⟨c, hc⟩ := hr _ hc; exact hnew c hc
  have h0 : h.rc h.next = 0 := by
    apply Nat.eq_zero_of_not_pos
    intro hp
    obtain ⟨c, hc⟩ := hI.alive _ hp
    exact hnew c hc
  refine ⟨?_, ?_, ?_, ?_, ?_, ?_⟩
  · show (((h.next, b) :: h.objs).map Prod.fst).Nodup
    rw [List.map_cons, List.nodup_cons]
    refine ⟨?_, hI.nodup⟩
    intro hm
    obtain ⟨e, he, hc⟩ := List.mem_map.mp hm
    have := hI.bound e he
    simp only at hc
    omega
  · intro e he
    show e.1 < h.next + 1
    rcases List.mem_cons.mp he with rfl | he
    · simp
    · have := hI.bound e he; omega
  · intro k
    have h1 := hI.counted k
    have h2 := he.count_eq k
    show put (fun k => h.rc k + rs.count k) h.next 1 k = put h.ext h.next 1 k + h.lost k
      + total (fun b => (refs b).count k) ((h.next, b) :: h.objs) + ([] : List Nat).count k
    rw [total_cons]
    have h3 : total (fun b => (refs b).count k) h.objs = inRefs h k := rfl
    rw [h3, ← h2]
    unfold put
    split
    · subst k
      have h4 := List.count_eq_zero.mpr hnr
      omega
    · rw [List.count_nil] at h1 ⊢
      show h.rc k + rs.count k = _
      omega
  · intro k hk
    have hk' : 0 < put (fun k => h.rc k + rs.count k) h.next 1 k := hk
    by_cases hkn : k = h.next
    · subst hkn; exact ⟨b, List.mem_cons_self⟩
    · unfold put at hk'
      rw [if_neg hkn] at hk'
      have hk'' : 0 < h.rc k + rs.count k := hk'
      have hex : ∃ c, (k, c) ∈ h.objs := by
        by_cases h1 : 0 < h.rc k
        · exact hI.alive k h1
        · exact hr k (List.count_pos_iff.mp (by omega))
      obtain ⟨c, hc⟩ := hex
      exact ⟨c, List.mem_cons_of_mem _ hc⟩
  · intro e he
    show 0 < put (fun k => h.rc k + rs.count k) h.next 1 e.1
    unfold put
    split
    · omega
    · rename_i hne
      rcases List.mem_cons.mp he with rfl | he
      · exact absurd rfl hne
      · have := hI.positive e he
        show 0 < h.rc e.1 + rs.count e.1
        omega
  · intro e hm hfr o ho
    rcases List.mem_cons.mp hm with rfl | hm
    · obtain ⟨c, hc⟩ := hr o (he.mem_iff.mpr ho)
      exact hI.bound _ hc
    · exact hI.older e hm hfr o ho

/-! ## The collector finds the garbage -/

theorem fold_decref (among : List Nat) : ∀ (l : List Nat) (g : Nat → Int) (k : Nat), k ∈ among →
    fold (visitDecref among) l g k = g k - l.count k := by
  intro l
  induction l with
  | nil => intro g k _; simp [fold]
  | cons o l ih =>
    intro g k hk
    rw [fold, ih _ k hk]
    unfold visitDecref
    by_cases ho : o ∈ among
    · rw [if_pos ho]
      simp only [put]
      by_cases hko : k = o
      · subst hko; rw [if_pos rfl, List.count_cons_self]; omega
      · rw [if_neg hko, List.count_cons_of_ne (fun h => hko h.symm)]
    · rw [if_neg ho]
      have hko : k ≠ o := fun h => ho (h ▸ hk)
      rw [List.count_cons_of_ne (fun h => hko h.symm)]

/-- References to an object from some objects. -/
def fromThese (h : Heap) (os : List Nat) (k : Nat) : Nat :=
  (os.map fun o => match h.body o with | some b => (refs b).count k | none => 0).sum

theorem subtractRefs_eq (h : Heap) (among : List Nat) : ∀ (os : List Nat) (g : Nat → Int) (k : Nat), k ∈ among →
    subtractRefs h among os g k = g k - fromThese h os k := by
  intro os
  induction os with
  | nil => intro g k _; simp [subtractRefs, fromThese]
  | cons o os ih =>
    intro g k hk
    have hv : ∀ o s, (visitDecref among o s).1 = 0 := by intro o s; unfold visitDecref; split <;> rfl
    rw [subtractRefs]
    cases hb : h.body o with
    | none =>
      simp only
      rw [ih _ k hk]
      simp [fromThese, hb]
    | some b =>
      simp only
      rw [ih _ k hk, traverse_zero _ hv]
      simp only
      rw [fold_decref among _ _ _ hk]
      simp only [fromThese, List.map_cons, List.sum_cons, hb]
      omega

/-- References to an object from objects that are not among some. -/
def fromOthers (h : Heap) (among : List Nat) (k : Nat) : Nat :=
  total (fun b => (refs b).count k) (h.objs.filter fun e => e.1 ∉ among)

theorem from_split {h : Heap} (hn : (h.objs.map Prod.fst).Nodup) (k : Nat) : ∀ among : List Nat, among.Nodup →
    (∀ o ∈ among, ∃ b, (o, b) ∈ h.objs) → inRefs h k = fromThese h among k + fromOthers h among k := by
  intro among
  induction among with
  | nil =>
    intro _ _
    have : (h.objs.filter fun e => e.1 ∉ ([] : List Nat)) = h.objs := by simp
    unfold fromOthers
    rw [this]
    simp [fromThese, inRefs]
  | cons o os ih =>
    intro hd hx
    rw [List.nodup_cons] at hd
    obtain ⟨b, hb⟩ := hx o List.mem_cons_self
    rw [ih hd.2 fun x hx' => hx x (List.mem_cons_of_mem _ hx')]
    have hbody : h.body o = some b := mem_lookup hn hb
    have h1 : fromThese h (o :: os) k = (refs b).count k + fromThese h os k := by
      simp only [fromThese, List.map_cons, List.sum_cons, hbody]
    have h2 : fromOthers h (o :: os) k + (refs b).count k = fromOthers h os k := by
      have hf : (h.objs.filter fun e => e.1 ∉ o :: os) = (h.objs.filter fun e => e.1 ∉ os).filter fun e => e.1 ≠ o := by
        rw [List.filter_filter]
        apply List.filter_congr
        intro e _
        simp [List.mem_cons, not_or]
      unfold fromOthers
      rw [hf]
      refine total_remove _ o b _ ?_ ?_
      · exact (List.filter_sublist.map Prod.fst).nodup hn
      · exact List.mem_filter.mpr ⟨hb, by simpa using hd.1⟩
    omega

/-- Held from outside, or by an object that is not examined. -/
def Direct (h : Heap) (among : List Nat) (o : Nat) : Prop := Rooted h o ∨ ∃ i, i ∉ among ∧ RefersTo h i o

theorem subtracted {h : Heap} (hI : Inv [] h) {among : List Nat} (hd : among.Nodup) (hx : ∀ o ∈ among, ∃ b, (o, b) ∈ h.objs)
    {k : Nat} (hk : k ∈ among) :
    subtractRefs h among among (fun o => (h.rc o : Int)) k ≠ 0 ↔ Direct h among k := by
  rw [subtractRefs_eq h among among _ k hk]
  have h1 := hI.counted k
  have h2 := from_split hI.nodup k among hd hx
  rw [List.count_nil] at h1
  have h3 : 0 < fromOthers h among k ↔ ∃ i, i ∉ among ∧ RefersTo h i k := by
    unfold fromOthers
    rw [total_pos]
    constructor
    · rintro ⟨i, b, hm, hc⟩
      obtain ⟨hm1, hm2⟩ := List.mem_filter.mp hm
      exact ⟨i, by simpa using hm2, b, hm1, List.count_pos_iff.mp hc⟩
    · rintro ⟨i, hi, b, hm, hc⟩
      exact ⟨i, b, List.mem_filter.mpr ⟨hm, by simpa using hi⟩, List.count_pos_iff.mpr hc⟩
  unfold Direct Rooted
  rw [← h3]
  omega

/-- Known to be needed. -/
def Marked (s : Scan) (o : Nat) : Prop := o ∈ s.reachable ∨ (o ∈ s.todo ∧ s.refs o ≠ 0)

/-- The lists of `move_unreachable` while the references of some objects are yet to be looked at. -/
structure Scanning (h : Heap) (among : List Nat) (open_ : List Nat) (s : Scan) : Prop where
  part : ∀ o, o ∈ among ↔ o ∈ s.todo ∨ o ∈ s.unreachable ∨ o ∈ s.reachable
  apart : ∀ o ∈ s.unreachable, o ∉ s.todo ∧ o ∉ s.reachable
  nodupU : s.unreachable.Nodup
  nodupT : s.todo.Nodup
  apartT : ∀ o ∈ s.todo, o ∉ s.reachable
  direct : ∀ o ∈ among, Direct h among o → Marked s o
  closed : ∀ i ∈ s.reachable, ∀ o ∈ among, RefersTo h i o → Marked s o ∨ o ∈ open_
  needed : ∀ o, Marked s o → Needed h among o
  openNeeded : ∀ o ∈ open_, Needed h among o

/-- A bound for the number of steps. -/
def toDo (s : Scan) : Nat := s.unreachable.length + s.todo.length + (s.todo.filter fun o => decide (s.refs o = 0)).length

theorem filter_put_le (l : List Nat) (g : Nat → Int) (o : Nat) :
    (l.filter fun k => decide (put g o 1 k = 0)).length ≤ (l.filter fun k => decide (g k = 0)).length := by
  induction l with
  | nil => exact Nat.le_refl _
  | cons k l ih =>
    simp only [List.filter_cons, put]
    simp only [put] at ih
    by_cases hk : k = o
    · simp only [hk, if_true]
      split <;> split <;> simp_all <;> omega
    · simp only [hk, if_false]
      split <;> simp_all

theorem marked_put {s : Scan} {o k : Nat} {T U : List Nat} (hT : ∀ x ∈ s.todo, x ∈ T) (h : Marked s k) :
    Marked { s with refs := put s.refs o 1, todo := T, unreachable := U } k := by
  rcases h with h | ⟨h1, h2⟩
  · exact .inl h
  · refine .inr ⟨hT k h1, ?_⟩
    simp only [put]
    split
    · omega
    · exact h2

theorem Scanning.visit {h : Heap} {among : List Nat} {o : Nat} {os : List Nat} {s : Scan} (hs : Scanning h among (o :: os) s) :
    Scanning h among os (visitReachable o s).2 ∧ toDo (visitReachable o s).2 ≤ toDo s := by
  have hon := hs.openNeeded o List.mem_cons_self
  unfold visitReachable
  by_cases hu : o ∈ s.unreachable
  · rw [if_pos hu]
    obtain ⟨hu1, hu2⟩ := hs.apart o hu
    have hmem : ∀ k, k ∈ s.unreachable.erase o ↔ k ≠ o ∧ k ∈ s.unreachable := fun k => hs.nodupU.mem_erase_iff
    have hmo : Marked { s with refs := put s.refs o 1, todo := s.todo ++ [o], unreachable := s.unreachable.erase o } o :=
      .inr ⟨List.mem_append.mpr (.inr (List.mem_singleton.mpr rfl)), by simp [put]⟩
    have hmono : ∀ {k}, Marked s k → Marked { s with refs := put s.refs o 1, todo := s.todo ++ [o], unreachable := s.unreachable.erase o } k :=
      fun hk => marked_put (fun x hx => List.mem_append.mpr (.inl hx)) hk
    refine ⟨⟨?_, ?_, ?_, ?_, ?_, ?_, ?_, ?_, ?_⟩, ?_⟩
    · intro k
      rw [hs.part k]
      simp only [List.mem_append, List.mem_singleton, hmem]
      by_cases hk : k = o
      · subst hk; simp [hu]
      · simp [hk]
    · intro k hk
      simp only [hmem] at hk
      obtain ⟨h1, h2⟩ := hs.apart k hk.2
      refine ⟨?_, h2⟩
      simp only [List.mem_append, List.mem_singleton, not_or]
      exact ⟨h1, hk.1⟩
    · exact hs.nodupU.erase o
    · rw [List.nodup_append]
      refine ⟨hs.nodupT, by simp, ?_⟩
      intro a ha b hb hab
      rw [List.mem_singleton] at hb
      subst hb; subst hab
      exact hu1 ha
    · intro k hk
      rcases List.mem_append.mp hk with hk | hk
      · exact hs.apartT k hk
      · rw [List.mem_singleton] at hk; subst hk; exact hu2
    · exact fun k hk hd => hmono (hs.direct k hk hd)
    · intro i hi k hk hr
      rcases hs.closed i hi k hk hr with h1 | h1
      · exact .inl (hmono h1)
      · rcases List.mem_cons.mp h1 with rfl | h1
        · exact .inl hmo
        · exact .inr h1
    · rintro k (hk | ⟨hk1, hk2⟩)
      · exact hs.needed k (.inl hk)
      · rcases List.mem_append.mp hk1 with hk1 | hk1
        · by_cases hko : k = o
          · subst hko; exact hon
          · refine hs.needed k (.inr ⟨hk1, ?_⟩)
            simpa [put, hko] using hk2
        · rw [List.mem_singleton] at hk1; subst hk1; exact hon
    · exact fun k hk => hs.openNeeded k (List.mem_cons_of_mem _ hk)
    · have h1 := filter_put_le s.todo s.refs o
      have h2 : (s.unreachable.erase o).length = s.unreachable.length - 1 := List.length_erase_of_mem hu
      have h3 : 0 < s.unreachable.length := List.length_pos_of_mem hu
      simp only [toDo, List.filter_append, List.length_append, h2]
      have h4 : ([o].filter fun k => decide (put s.refs o 1 k = 0)) = [] := by simp [put]
      rw [h4]
      simp only [List.length_cons, List.length_nil]
      omega
  · rw [if_neg hu]
    by_cases ht : o ∈ s.todo ∧ s.refs o = 0
    · rw [if_pos ht]
      have hmono : ∀ {k}, Marked s k → Marked { s with refs := put s.refs o 1 } k := fun hk => marked_put (fun _ h => h) hk
      refine ⟨⟨hs.part, hs.apart, hs.nodupU, hs.nodupT, hs.apartT, fun k hk hd => hmono (hs.direct k hk hd), ?_, ?_,
        fun k hk => hs.openNeeded k (List.mem_cons_of_mem _ hk)⟩, ?_⟩
      · intro i hi k hk hr
        rcases hs.closed i hi k hk hr with h1 | h1
        · exact .inl (hmono h1)
        · rcases List.mem_cons.mp h1 with rfl | h1
          · exact .inl (.inr ⟨ht.1, by simp [put]⟩)
          · exact .inr h1
      · rintro k (hk | ⟨hk1, hk2⟩)
        · exact hs.needed k (.inl hk)
        · by_cases hko : k = o
          · subst hko; exact hon
          · refine hs.needed k (.inr ⟨hk1, ?_⟩)
            simpa [put, hko] using hk2
      · have h1 := filter_put_le s.todo s.refs o
        simp only [toDo]
        omega
    · rw [if_neg ht]
      refine ⟨⟨hs.part, hs.apart, hs.nodupU, hs.nodupT, hs.apartT, hs.direct, ?_, hs.needed,
        fun k hk => hs.openNeeded k (List.mem_cons_of_mem _ hk)⟩, Nat.le_refl _⟩
      intro i hi k hk hr
      rcases hs.closed i hi k hk hr with h1 | h1
      · exact .inl h1
      · rcases List.mem_cons.mp h1 with rfl | h1
        · left
          rcases (hs.part k).mp hk with h2 | h2 | h2
          · exact .inr ⟨h2, fun hc => ht ⟨h2, hc⟩⟩
          · exact absurd h2 hu
          · exact .inl h2
        · exact .inr h1

theorem Scanning.fold {h : Heap} {among : List Nat} : ∀ (os : List Nat) (s : Scan), Scanning h among os s →
    Scanning h among [] (Gc.fold visitReachable os s) ∧ toDo (Gc.fold visitReachable os s) ≤ toDo s
  | [], _, hs => ⟨hs, Nat.le_refl _⟩
  | _ :: os, _, hs =>
    have h1 := hs.visit
    have h2 := Scanning.fold os _ h1.1
    ⟨h2.1, Nat.le_trans h2.2 h1.2⟩

theorem moveUnreachable_scanning {h : Heap} (hn : (h.objs.map Prod.fst).Nodup) {among : List Nat} : ∀ (n : Nat) (s : Scan),
    Scanning h among [] s → toDo s ≤ n →
    Scanning h among [] (moveUnreachable h n s) ∧ (moveUnreachable h n s).todo = [] := by
  intro n
  induction n with
  | zero =>
    intro s hs hn
    refine ⟨hs, List.length_eq_zero_iff.mp ?_⟩
    simp only [toDo] at hn
    show s.todo.length = 0
    omega
  | succ n ih =>
    intro s hs hle
    rw [moveUnreachable]
    cases ht : s.todo with
    | nil => exact ⟨hs, ht⟩
    | cons o os =>
      simp only
      have hot : o ∈ s.todo := by rw [ht]; exact List.mem_cons_self
      have hnd := hs.nodupT
      rw [ht, List.nodup_cons] at hnd
      have hor := hs.apartT o hot
      by_cases h0 : s.refs o ≠ 0
      · rw [if_pos h0]
        have hmark : ∀ {k}, Marked s k ↔ Marked { s with todo := os, reachable := s.reachable ++ [o] } k := by
          intro k
          simp only [Marked, ht, List.mem_append, List.mem_cons, List.not_mem_nil, or_false]
          by_cases hk : k = o
          · subst hk; simp [h0]
          · simp [hk]
        have base : ∀ open_, (∀ k ∈ among, RefersTo h o k → k ∈ open_) → (∀ k ∈ open_, RefersTo h o k) →
            Scanning h among open_ { s with todo := os, reachable := s.reachable ++ [o] } := by
          intro open_ hop1 hop2
          refine ⟨?_, ?_, hs.nodupU, hnd.2, ?_, fun k hk hd => hmark.mp (hs.direct k hk hd), ?_, fun k hk => hs.needed k (hmark.mpr hk), ?_⟩
          · intro k
            rw [hs.part k, ht]
            simp only [List.mem_cons, List.mem_append, List.not_mem_nil, or_false]
            constructor
            · rintro ((h | h) | h | h) <;> simp [h]
            · rintro (h | h | h | h) <;> simp [h]
          · intro k hk
            obtain ⟨h1, h2⟩ := hs.apart k hk
            rw [ht] at h1
            simp only [List.mem_cons, not_or] at h1
            simp only [List.mem_append, List.mem_cons, List.not_mem_nil, or_false, not_or]
            exact ⟨h1.2, h2, h1.1⟩
          · intro k hk
            simp only [List.mem_append, List.mem_cons, List.not_mem_nil, or_false, not_or]
            refine ⟨hs.apartT k (by rw [ht]; exact List.mem_cons_of_mem _ hk), ?_⟩
            intro hc
            subst hc
            exact hnd.1 hk
          · intro i hi k hk hr
            rcases List.mem_append.mp hi with hi | hi
            · rcases hs.closed i hi k hk hr with h1 | h1
              · exact .inl (hmark.mp h1)
              · cases h1
            · rw [List.mem_singleton] at hi
              subst hi
              exact .inr (hop1 k hk hr)
          · exact fun k hk => .step (hs.needed o (.inr ⟨hot, h0⟩)) (hop2 k hk)
        have hle' : toDo { s with todo := os, reachable := s.reachable ++ [o] } ≤ n := by
          simp only [toDo, ht, List.length_cons, List.filter_cons] at hle ⊢
          rw [if_neg (by simpa using h0)] at hle
          omega
        cases hb : h.body o with
        | none =>
          simp only
          refine ih _ (base [] ?_ (fun k hk => nomatch hk)) hle'
          rintro k _ ⟨b, hb', _⟩
          have := mem_lookup hn hb'
          rw [Heap.body] at hb
          rw [hb] at this
          cases this
        | some b =>
          simp only
          have hv : ∀ o s, (visitReachable o s).1 = 0 := by
            intro o s; unfold visitReachable; split
            · rfl
            · split <;> rfl
          rw [traverse_zero _ hv]
          have hbm := lookup_mem hb
          have h1 := Scanning.fold (refs b) _ (base (refs b)
            (fun k _ ⟨b', hb', hk⟩ => mem_unique hn hbm hb' ▸ hk) (fun k hk => ⟨b, hbm, hk⟩))
          exact ih _ h1.1 (Nat.le_trans h1.2 hle')
      · rw [if_neg h0]
        have h0' : s.refs o = 0 := by simpa using h0
        have hmark : ∀ {k}, Marked s k ↔ Marked { s with todo := os, unreachable := s.unreachable ++ [o] } k := by
          intro k
          simp only [Marked, ht, List.mem_cons]
          by_cases hk : k = o
          · subst hk; simp [h0', hnd.1]
          · simp [hk]
        refine ih _ ⟨?_, ?_, ?_, hnd.2, fun k hk => hs.apartT k (by rw [ht]; exact List.mem_cons_of_mem _ hk),
          fun k hk hd => hmark.mp (hs.direct k hk hd), ?_, fun k hk => hs.needed k (hmark.mpr hk), hs.openNeeded⟩ ?_
        · intro k
          rw [hs.part k, ht]
          simp only [List.mem_cons, List.mem_append, List.not_mem_nil, or_false]
          constructor
          · rintro ((h | h) | h | h) <;> simp [h]
          · rintro (h | (h | h) | h) <;> simp [h]
        · intro k hk
          rcases List.mem_append.mp hk with hk | hk
          · obtain ⟨h1, h2⟩ := hs.apart k hk
            rw [ht] at h1
            simp only [List.mem_cons, not_or] at h1
            exact ⟨h1.2, h2⟩
          · rw [List.mem_singleton] at hk
            subst hk
            exact ⟨hnd.1, hor⟩
        · rw [List.nodup_append]
          refine ⟨hs.nodupU, by simp, ?_⟩
          intro a ha b hb hab
          rw [List.mem_singleton] at hb
          subst hb; subst hab
          exact (hs.apart a ha).1 hot
        · intro i hi k hk hr
          rcases hs.closed i hi k hk hr with h1 | h1
          · exact .inl (hmark.mp h1)
          · cases h1
        · simp only [toDo, ht, List.length_cons, List.filter_cons, List.length_append, List.length_nil] at hle ⊢
          rw [if_pos (by simpa using h0')] at hle
          simp only [List.length_cons] at hle
          omega

theorem deduceUnreachable_iff {h : Heap} (hI : Inv [] h) {among : List Nat} (hd : among.Nodup)
    (hx : ∀ o ∈ among, ∃ b, (o, b) ∈ h.objs) (o : Nat) :
    o ∈ deduceUnreachable h among ↔ o ∈ among ∧ ¬ Needed h among o := by
  unfold deduceUnreachable
  simp only
  have h0 : Scanning h among [] { refs := subtractRefs h among among fun o => (h.rc o : Int), todo := among, unreachable := [], reachable := [] } := by
    refine ⟨by simp, fun _ h => (nomatch h), List.nodup_nil, hd, fun _ _ h => (nomatch h), ?_, fun _ h => (nomatch h), ?_, fun _ h => (nomatch h)⟩
    · exact fun k hk hdir => .inr ⟨hk, (subtracted hI hd hx hk).mpr hdir⟩
    · rintro k (hk | ⟨hk1, hk2⟩)
      · cases hk
      · rcases (subtracted hI hd hx hk1).mp hk2 with h1 | ⟨i, h1, h2⟩
        · exact .root h1
        · exact .old h1 h2
  have hfuel : toDo { refs := subtractRefs h among among fun o => (h.rc o : Int), todo := among, unreachable := [], reachable := [] : Scan }
      ≤ 2 * among.length := by
    have := List.length_filter_le (fun o => decide (subtractRefs h among among (fun o => (h.rc o : Int)) o = 0)) among
    simp only [toDo, List.length_nil]
    omega
  obtain ⟨hs, ht⟩ := moveUnreachable_scanning hI.nodup _ _ h0 hfuel
  generalize moveUnreachable h _ _ = s at hs ht
  have hreach : ∀ k, k ∈ s.reachable → Needed h among k := fun k hk => hs.needed k (.inl hk)
  have hmark : ∀ k, Marked s k → k ∈ s.reachable := by
    rintro k (hk | ⟨hk, _⟩)
    · exact hk
    · rw [ht] at hk; cases hk
  have hall : ∀ k, Needed h among k → k ∈ among → k ∈ s.reachable := by
    intro k hk
    induction hk with
    | root hr => exact fun hm => hmark _ (hs.direct _ hm (.inl hr))
    | old hi hr => exact fun hm => hmark _ (hs.direct _ hm (.inr ⟨_, hi, hr⟩))
    | @step i k _ hr ih =>
      intro hm
      by_cases hi : i ∈ among
      · rcases hs.closed i (ih hi) k hm hr with h1 | h1
        · exact hmark _ h1
        · cases h1
      · exact hmark _ (hs.direct _ hm (.inr ⟨_, hi, hr⟩))
  constructor
  · intro ho
    have hm := (hs.part o).mpr (.inr (.inl ho))
    exact ⟨hm, fun hn => (hs.apart o ho).2 (hall o hn hm)⟩
  · rintro ⟨hm, hn⟩
    rcases (hs.part o).mp hm with h1 | h1 | h1
    · rw [ht] at h1; cases h1
    · exact h1
    · exact absurd (hreach o h1) hn

/-! ## ... and removes it -/

/-- What a collection leaves. -/
structure Swept (G : List Nat) (h h' : Heap) : Prop where
  inv : Inv [] h'
  ext : h'.ext = h.ext
  lost : h'.lost = h.lost
  next : h'.next = h.next
  sub : ∀ i b, (i, b) ∈ h'.objs → (i, b) ∈ h.objs ∨ (refs b = [] ∧ ¬ Frozen b)
  cleared : ∀ i ∈ G, ∀ b, (i, b) ∈ h'.objs → Frozen b ∨ refs b = []
  kept : ∀ R : Nat → Prop, Supported R h → (∀ i ∈ G, ¬ R i) → ∀ e ∈ h.objs, R e.1 → e ∈ h'.objs

theorem deleteGarbage_swept : ∀ (G : List Nat) (h : Heap), Inv [] h → Swept G h (deleteGarbage G h) := by
  intro G
  induction G with
  | nil => exact fun h hI => ⟨hI, rfl, rfl, rfl, fun _ _ h => .inl h, fun _ h => (nomatch h), fun _ _ _ _ h _ => h⟩
  | cons o os ih =>
    intro h hI
    rw [deleteGarbage]
    have skip : (∀ b, (o, b) ∈ h.objs → Frozen b) → Swept (o :: os) h (deleteGarbage os h) := by
      intro hf
      have hs := ih h hI
      refine ⟨hs.inv, hs.ext, hs.lost, hs.next, hs.sub, ?_, fun R hR hG => hs.kept R hR fun i hi => hG i (List.mem_cons_of_mem _ hi)⟩
      intro i hi b hb
      rcases List.mem_cons.mp hi with rfl | hi
      · rcases hs.sub _ b hb with h1 | h1
        · exact .inl (hf b h1)
        · exact .inr h1.1
      · exact hs.cleared i hi b hb
    cases hb : h.body o with
    | none =>
      refine skip fun b hm => ?_
      have := mem_lookup hI.nodup hm
      rw [Heap.body] at hb
      rw [hb] at this
      cases this
    | some b =>
      have hbm : (o, b) ∈ h.objs := lookup_mem hb
      simp only
      cases hc : clear b with
      | none => exact skip fun b' hm => mem_unique hI.nodup hbm hm ▸ clear_none hc
      | some p =>
        obtain ⟨b', r⟩ := p
        simp only
        obtain ⟨hr0, hrp, hnf⟩ := clear_some hc
        have i1 : Inv [o] (incref [o] h) := hI.held hbm
        have i2 : Inv (r ++ [o]) ((incref [o] h).store o b') := by
          have := i1.replace (b' := b') hbm (by rw [hr0]; exact fun _ h => (nomatch h)) (fun h => absurd h hnf)
          have he : incref (refs b') (incref [o] h) = incref [o] h := by rw [hr0]; rfl
          rw [he] at this
          exact this.perm (hrp.symm.append_right [o])
        have a1 := release_after i2
        have a2 := release_after (os := [o]) (rest := []) a1.inv
        have hs := ih _ a2.inv
        have hin : ∀ i c, (i, c) ∈ (release [o] (release r ((incref [o] h).store o b'))).objs →
            (i ≠ o ∧ (i, c) ∈ h.objs) ∨ (i = o ∧ c = b') := by
          intro i c hm
          rcases mem_store.mp (a1.sub _ (a2.sub _ hm)) with h1 | ⟨h1, _⟩
          · exact .inl h1
          · cases h1; exact .inr ⟨rfl, rfl⟩
        refine ⟨hs.inv, ?_, ?_, ?_, ?_, ?_, ?_⟩
        · rw [hs.ext, a2.ext, a1.ext]; rfl
        · rw [hs.lost, a2.lost, a1.lost]; rfl
        · rw [hs.next, a2.next, a1.next]; rfl
        · intro i c hm
          rcases hs.sub i c hm with h1 | h1
          · rcases hin i c h1 with ⟨_, h2⟩ | ⟨_, rfl⟩
            · exact .inl h2
            · exact .inr ⟨hr0, hnf⟩
          · exact .inr h1
        · intro i hi c hm
          rcases List.mem_cons.mp hi with rfl | hi
          · rcases hs.sub _ c hm with h1 | h1
            · rcases hin _ c h1 with ⟨h2, _⟩ | ⟨_, rfl⟩
              · exact absurd rfl h2
              · exact .inr hr0
            · exact .inr h1.1
          · exact hs.cleared i hi c hm
        · intro R hR hG e he hRe
          have hno : ¬ R o := hG o List.mem_cons_self
          have hmem : ∀ e ∈ h.objs, R e.1 → e ∈ ((incref [o] h).store o b').objs :=
            fun e he hRe => mem_store.mpr (.inl ⟨fun hc => hno (hc ▸ hRe), he⟩)
          have hR1 : Supported R ((incref [o] h).store o b') := by
            intro k hk
            rcases hR k hk with h1 | ⟨i, c, hi, h2, h3⟩
            · exact .inl h1
            · exact .inr ⟨i, c, hi, hmem _ h2 hi, h3⟩
          have hR2 := a1.supported hR1
          exact hs.kept R (a2.supported hR2) (fun i hi => hG i (List.mem_cons_of_mem _ hi)) e
            (a2.kept R hR2 e (a1.kept R hR1 e (hmem e he hRe) hRe) hRe) hRe

theorem reachable_supported (h : Heap) : Supported (Reachable h) h := by
  intro o ho
  cases ho with
  | root h1 => exact .inl h1
  | step h1 h2 =>
    obtain ⟨b, h3, h4⟩ := h2
    exact .inr ⟨_, b, h1, h3, h4⟩

theorem reachable_needed {h : Heap} {among : List Nat} {o : Nat} (hr : Reachable h o) : Needed h among o := by
  induction hr with
  | root h1 => exact .root h1
  | step _ h2 ih => exact .step ih h2

end ZS.Gc
