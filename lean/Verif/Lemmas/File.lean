import Verif.Spec.File
import Verif.Props.Zcml

/-!
# Contexts and the events read so far
-/

namespace ZS.Props
open Spec

/-! ## Cancelling events -/

theorem nest_none (l : List Ev) : l.foldl nest none = none := by
  induction l with
  | nil => rfl
  | cons e r ih => simpa [nest] using ih

/-- Events that do not change the groups. -/
def Flat (e : Ev) : Prop := (∀ file, e ≠ .enter file) ∧ e ≠ .leave

theorem nest_flat {e : Ev} (h : Flat e) (o : Option Nat) : nest o e = o := by
  cases o with
  | none => rfl
  | some n =>
    cases e with
    | enter file => exact absurd rfl (h.1 file)
    | leave => exact absurd rfl h.2
    | _ => cases n <;> rfl

theorem nest_pair (file : Option String) (o : Option Nat) : nest (nest o (.enter file)) .leave = o := by
  cases o <;> rfl

theorem open_flat {e : Ev} (h : Flat e) (p x : List Ev) : StaysOpen (p ++ e :: x) ↔ StaysOpen (p ++ x) := by
  unfold StaysOpen
  rw [List.foldl_append, List.foldl_append, List.foldl_cons, nest_flat h]

theorem open_pair (file : Option String) (p x : List Ev) :
    StaysOpen (p ++ .enter file :: .leave :: x) ↔ StaysOpen (p ++ x) := by
  unfold StaysOpen
  rw [List.foldl_append, List.foldl_append, List.foldl_cons, List.foldl_cons, nest_pair]

theorem open_nil : StaysOpen [] := rfl

theorem path_flat {e : Ev} (h : Flat e) (p x : List Ev) : includePath (p ++ e :: x) = includePath (p ++ x) := by
  induction p with
  | nil =>
    cases e with
    | enter file => exact absurd rfl (h.1 file)
    | _ => rfl
  | cons a r ih =>
    cases a with
    | enter file =>
      cases file with
      | none => exact ih
      | some file =>
        simp only [List.cons_append, includePath, ih]
        by_cases ho : StaysOpen (r ++ x)
        · rw [if_pos ho, if_pos ((open_flat h r x).mpr ho)]
        · rw [if_neg ho, if_neg (fun h' => ho ((open_flat h r x).mp h'))]
    | _ => exact ih

theorem path_pair (file : Option String) (p x : List Ev) :
    includePath (p ++ .enter file :: .leave :: x) = includePath (p ++ x) := by
  induction p with
  | nil =>
    cases file with
    | none => rfl
    | some file =>
      show includePath (.enter (some file) :: .leave :: x) = includePath x
      have : ¬ StaysOpen (.leave :: x) := by
        unfold StaysOpen
        simp [nest, nest_none]
      simp only [includePath, if_neg this]
  | cons a r ih =>
    cases a with
    | enter file' =>
      cases file' with
      | none => exact ih
      | some file' =>
        simp only [List.cons_append, includePath, ih]
        by_cases ho : StaysOpen (r ++ x)
        · rw [if_pos ho, if_pos ((open_pair file r x).mpr ho)]
        · rw [if_neg ho, if_neg (fun h' => ho ((open_pair file r x).mp h'))]
    | _ => exact ih

theorem path_enter (file : Option String) (p : List Ev) :
    includePath (p ++ [.enter file]) = includePath p ++ file.toList := by
  induction p with
  | nil => cases file <;> rfl
  | cons a r ih =>
    cases a with
    | enter file' =>
      cases file' with
      | none => exact ih
      | some file' =>
        simp only [List.cons_append, includePath, ih]
        have : StaysOpen (r ++ [.enter file]) ↔ StaysOpen r := by
          unfold StaysOpen
          rw [List.foldl_append]
          cases r.foldl nest (some 0) <;> simp [nest]
        by_cases ho : StaysOpen r
        · rw [if_pos ho, if_pos (this.mpr ho)]; rfl
        · rw [if_neg ho, if_neg (fun h' => ho (this.mp h'))]
    | _ => exact ih

theorem redefs_append (p x : List Ev) : redefinitions (p ++ x) = redefinitions p ++ redefinitions x := by
  induction p with
  | nil => rfl
  | cons a r ih =>
    cases a <;> simp only [List.cons_append, redefinitions, ih]

/-- Events that change neither groups nor permissions. -/
def Idle (e : Ev) : Prop := Flat e ∧ ∀ a b, e ≠ .redefine a b

theorem redefs_idle {e : Ev} (h : ∀ a b, e ≠ .redefine a b) (p x : List Ev) :
    redefinitions (p ++ e :: x) = redefinitions (p ++ x) := by
  rw [redefs_append, redefs_append]
  cases e with
  | redefine a b => exact absurd rfl (h a b)
  | _ => rfl

theorem force_idle {e : Ev} (h : Idle e) (p x : List Ev) :
    redefinitionsInForce (p ++ e :: x) = redefinitionsInForce (p ++ x) := by
  induction p with
  | nil =>
    cases e with
    | redefine a b => exact absurd rfl (h.2 a b)
    | _ => rfl
  | cons a r ih =>
    cases a with
    | redefine a b =>
      simp only [List.cons_append, redefinitionsInForce, ih, redefs_idle h.2]
      by_cases ho : StaysOpen (r ++ x)
      · rw [if_pos ho, if_pos ((open_flat h.1 r x).mpr ho)]
      · rw [if_neg ho, if_neg (fun h' => ho ((open_flat h.1 r x).mp h'))]
    | _ => exact ih

theorem force_pair (file : Option String) (p x : List Ev) :
    redefinitionsInForce (p ++ .enter file :: .leave :: x) = redefinitionsInForce (p ++ x) := by
  induction p with
  | nil => rfl
  | cons a r ih =>
    cases a with
    | redefine a b =>
      have : redefinitions (r ++ .enter file :: .leave :: x) = redefinitions (r ++ x) := by
        rw [redefs_append, redefs_append]; rfl
      simp only [List.cons_append, redefinitionsInForce, ih, this]
      by_cases ho : StaysOpen (r ++ x)
      · rw [if_pos ho, if_pos ((open_pair file r x).mpr ho)]
      · rw [if_neg ho, if_neg (fun h' => ho ((open_pair file r x).mp h'))]
    | _ => exact ih

theorem force_enter (file : Option String) (p : List Ev) :
    redefinitionsInForce (p ++ [.enter file]) = redefinitionsInForce p := by
  induction p with
  | nil => rfl
  | cons a r ih =>
    cases a with
    | redefine a b =>
      have h1 : StaysOpen (r ++ [.enter file]) ↔ StaysOpen r := by
        unfold StaysOpen
        rw [List.foldl_append]
        cases r.foldl nest (some 0) <;> simp [nest]
      have h2 : redefinitions (r ++ [.enter file]) = redefinitions r := by
        rw [redefs_append]; simp [redefinitions]
      simp only [List.cons_append, redefinitionsInForce, ih, h2]
      by_cases ho : StaysOpen r
      · rw [if_pos ho, if_pos (h1.mpr ho)]
      · rw [if_neg ho, if_neg (fun h' => ho (h1.mp h'))]
    | _ => exact ih

theorem force_leaves (i : Nat) : redefinitionsInForce (List.replicate i .leave) = [] := by
  induction i with
  | zero => rfl
  | succ i ih => exact ih

theorem redefs_leaves (i : Nat) : redefinitions (List.replicate i .leave) = [] := by
  induction i with
  | zero => rfl
  | succ i ih => exact ih

/-- A redefinition, and then some groups left. -/
theorem force_redefine (a b : String) (p : List Ev) (i : Nat) :
    redefinitionsInForce (p ++ .redefine a b :: List.replicate i .leave)
      = if redefinitionsInForce (p ++ List.replicate i .leave) = [] then
          (if i = 0 then [.redefine a b] else [])
        else redefinitionsInForce (p ++ List.replicate i .leave) ++ [.redefine a b] := by
  have hf : Flat (.redefine a b) := ⟨(fun _ h => nomatch h), (fun h => nomatch h)⟩
  induction p with
  | nil =>
    simp only [List.nil_append, force_leaves, if_true, redefinitionsInForce, redefs_leaves]
    cases i with
    | zero => rfl
    | succ i =>
      have : ¬ StaysOpen (List.replicate (i + 1) .leave) := by
        unfold StaysOpen
        simp [List.replicate, nest, nest_none]
      rw [if_neg this]; rfl
  | cons e r ih =>
    cases e with
    | redefine a' b' =>
      simp only [List.cons_append, redefinitionsInForce, ih, redefs_append, redefs_leaves, redefinitions]
      by_cases ho : StaysOpen (r ++ List.replicate i .leave)
      · rw [if_pos ho, if_pos ((open_flat hf _ _).mpr ho)]
        simp
      · rw [if_neg ho, if_neg (fun h' => ho ((open_flat hf _ _).mp h'))]
    | _ => exact ih

/-! ## Contexts -/

/-- The include paths of the contexts are those of the events. -/
def PathsOK : List Ev → List Frame → Prop
  | _, [] => True
  | p, c :: r => c.path = includePath p ∧ PathsOK (p ++ [.leave]) r

/-- The mapping is what the redefinitions say. -/
def MapsTo (f : IdField) (m : Option (PyDict String String)) (h : List ZDirective) : Prop :=
  (m = none ↔ h = []) ∧ ∀ u v, StandsFor f h.reverse u v ↔ mapOf m u = v

/-- The mappings found from the contexts are those of the events. -/
def MapsOK (f : IdField) : List Ev → List Frame → Prop
  | _, [] => True
  | p, c :: r => MapsTo f (inForce (c :: r)) (redefinitionsInForce p) ∧ MapsOK f (p ++ [.leave]) r

theorem paths_congr {p q : List Ev} (h : ∀ x, includePath (p ++ x) = includePath (q ++ x)) (st : List Frame) :
    PathsOK p st → PathsOK q st := by
  induction st generalizing p q with
  | nil => exact id
  | cons c r ih =>
    rintro ⟨h1, h2⟩
    refine ⟨?_, ih (fun x => ?_) h2⟩
    · have := h []
      simp only [List.append_nil] at this
      rw [h1, this]
    · simpa using h (.leave :: x)

theorem maps_congr {f : IdField} {p q : List Ev}
    (h : ∀ x, redefinitionsInForce (p ++ x) = redefinitionsInForce (q ++ x)) (st : List Frame) :
    MapsOK f p st → MapsOK f q st := by
  induction st generalizing p q with
  | nil => exact id
  | cons c r ih =>
    rintro ⟨h1, h2⟩
    refine ⟨?_, ih (fun x => ?_) h2⟩
    · have := h []
      simp only [List.append_nil] at this
      rw [← this]; exact h1
    · simpa using h (.leave :: x)

theorem paths_of_paths {p : List Ev} {st st' : List Frame} (h : st.map (·.path) = st'.map (·.path)) :
    PathsOK p st → PathsOK p st' := by
  induction st generalizing p st' with
  | nil =>
    cases st' with
    | nil => exact id
    | cons c r => simp at h
  | cons c r ih =>
    cases st' with
    | nil => simp at h
    | cons c' r' =>
      simp only [List.map_cons, List.cons.injEq] at h
      rintro ⟨h1, h2⟩
      exact ⟨h.1 ▸ h1, ih h.2 h2⟩

theorem redefineIn_paths (a b : String) (st : List Frame) :
    (redefineIn a b st).map (·.path) = st.map (·.path) := by
  induction st with
  | nil => rfl
  | cons c r ih =>
    unfold redefineIn
    cases c.mapping <;> simp [ih]

theorem redefineAt_paths (a b : String) (st : List Frame) :
    (redefineAt a b st).map (·.path) = st.map (·.path) := by
  unfold redefineAt
  split
  · exact redefineIn_paths a b st
  · cases st <;> rfl

theorem inForce_redefineIn (a b : String) (st : List Frame) :
    inForce (redefineIn a b st) = (inForce st).map fun m => m.set a b := by
  induction st with
  | nil => rfl
  | cons c r ih =>
    unfold redefineIn
    cases hm : c.mapping with
    | none => simp only [inForce, hm, ih]
    | some m => simp [inForce, hm]

/-- A redefinition changes what the mapping says as it should. -/
theorem mapsTo_redefine {f : IdField} {m : PyDict String String} {h : List ZDirective} {a b : String}
    (hm : MapsTo f (some m) h) :
    MapsTo f (some (m.set (mapOf (some m) (f.strip a)) (mapOf (some m) (f.strip b)))) (h ++ [.redefine a b]) := by
  refine ⟨by simp, fun u v => ?_⟩
  have hr : ∀ u, StandsFor f h.reverse u (mapOf (some m) u) := fun u => (hm.2 u _).mpr rfl
  have := mapOf_redefine ⟨some m, []⟩ (mapOf (some m) (f.strip a)) (mapOf (some m) (f.strip b)) u
  simp only [redefinePermission] at this
  rw [List.reverse_append, this]
  constructor
  · intro hs
    cases hs with
    | redefined h1 h2 =>
      rw [if_pos ((hm.2 _ _).mp h1)]; exact (hm.2 _ _).mp h2
    | other h1 h2 h3 =>
      rw [if_neg (by rw [(hm.2 _ _).mp h1]; exact Ne.symm h2)]; exact (hm.2 _ _).mp h3
    | skip h1 => exact absurd rfl (h1 a b)
  · intro hv
    by_cases he : mapOf (some m) (f.strip a) = u
    · rw [if_pos he] at hv
      subst he hv
      exact .redefined (hr _) (hr _)
    · rw [if_neg he] at hv
      exact .other (hr _) (Ne.symm he) ((hm.2 u v).mpr hv)

/-- The first redefinition. -/
theorem mapsTo_first {f : IdField} (a b : String) :
    MapsTo f (some (PyDict.set [] (f.strip a) (f.strip b))) [.redefine a b] := by
  refine ⟨by simp, fun u v => ?_⟩
  have := mapOf_redefine ⟨none, []⟩ (f.strip a) (f.strip b) u
  simp only [redefinePermission] at this
  show StandsFor f [.redefine a b] u v ↔ _
  rw [this]
  constructor
  · intro hs
    cases hs with
    | redefined h1 h2 => cases h1; cases h2; rw [if_pos rfl]
    | other h1 h2 h3 => cases h1; cases h3; rw [if_neg (Ne.symm h2)]; rfl
    | skip h1 => exact absurd rfl (h1 a b)
  · intro hv
    by_cases he : f.strip a = u
    · rw [if_pos he] at hv
      subst he hv
      exact .redefined .start .start
    · rw [if_neg he] at hv
      have : u = v := hv
      subst this
      exact .other .start (Ne.symm he) .start

theorem leaves_succ (p : List Ev) (i : Nat) : p ++ List.replicate i .leave ++ [.leave] = p ++ List.replicate (i + 1) .leave := by
  rw [List.append_assoc, List.replicate_succ']

theorem leaves_succ' (p : List Ev) (a b : String) (i : Nat) :
    p ++ .redefine a b :: List.replicate i .leave ++ [.leave] = p ++ .redefine a b :: List.replicate (i + 1) .leave := by
  rw [List.append_assoc, List.cons_append, List.replicate_succ']

/-- Where no redefinition is in force, one further inside does not matter. -/
theorem maps_outer {f : IdField} {a b : String} {p : List Ev} (st : List Frame) (i : Nat) (hi : 0 < i)
    (hn : inForce st = none) :
    MapsOK f (p ++ List.replicate i .leave) st → MapsOK f (p ++ .redefine a b :: List.replicate i .leave) st := by
  induction st generalizing i with
  | nil => exact id
  | cons c r ih =>
    rintro ⟨h1, h2⟩
    have hr : inForce r = none := by
      unfold inForce at hn
      cases hm : c.mapping with
      | none => rw [hm] at hn; exact hn
      | some m => rw [hm] at hn; cases hn
    refine ⟨?_, ?_⟩
    · have h0 := h1.1.mp hn
      rw [force_redefine, if_pos h0, if_neg (by omega), ← h0]
      exact h1
    · rw [leaves_succ'] ; rw [leaves_succ] at h2
      exact ih (i + 1) (by omega) hr h2

/-- A redefinition while others are in force. -/
theorem maps_inner {f : IdField} {a b : String} {p : List Ev} (st : List Frame) (i : Nat) (m : PyDict String String)
    (hone : ∀ c r, (c :: r) <:+ st → c.mapping ≠ none → inForce r = none) (hn : inForce st = some m) :
    MapsOK f (p ++ List.replicate i .leave) st →
    MapsOK f (p ++ .redefine a b :: List.replicate i .leave)
      (redefineIn (mapOf (some m) (f.strip a)) (mapOf (some m) (f.strip b)) st) := by
  induction st generalizing i with
  | nil => cases hn
  | cons c r ih =>
    rintro ⟨h1, h2⟩
    have h3 : MapsTo f (some (m.set (mapOf (some m) (f.strip a)) (mapOf (some m) (f.strip b))))
        (redefinitionsInForce (p ++ .redefine a b :: List.replicate i .leave)) := by
      rw [hn] at h1
      rw [force_redefine, if_neg (fun h0 => by have := h1.1.mpr h0; cases this)]
      exact mapsTo_redefine h1
    have h4 := inForce_redefineIn (mapOf (some m) (f.strip a)) (mapOf (some m) (f.strip b)) (c :: r)
    rw [hn] at h4
    rw [leaves_succ] at h2
    unfold redefineIn at h4 ⊢
    cases hm : c.mapping with
    | none =>
      rw [hm] at h4
      simp only at h4 ⊢
      have hr : inForce r = some m := by
        unfold inForce at hn
        rw [hm] at hn; exact hn
      refine ⟨?_, ?_⟩
      · rw [h4]; exact h3
      · rw [leaves_succ']
        exact ih (i + 1) (fun c' r' hs => hone c' r' (hs.trans (List.suffix_cons c r))) hr h2
    | some m' =>
      rw [hm] at h4
      simp only at h4 ⊢
      refine ⟨?_, ?_⟩
      · rw [h4]; exact h3
      · rw [leaves_succ']
        exact maps_outer r (i + 1) (by omega) (hone c r (List.suffix_refl _) (by rw [hm]; simp)) h2

/-- At most one context has a mapping of its own. -/
def OneMapping (st : List Frame) : Prop := ∀ c r, (c :: r) <:+ st → c.mapping ≠ none → inForce r = none

theorem oneMapping_tail {c : Frame} {r : List Frame} (h : OneMapping (c :: r)) : OneMapping r :=
  fun c' r' hs => h c' r' (hs.trans (List.suffix_cons c r))

theorem oneMapping_cons {c : Frame} {r : List Frame} (h : OneMapping r) (hc : c.mapping ≠ none → inForce r = none) :
    OneMapping (c :: r) := by
  intro c' r' hs hm
  rcases List.suffix_cons_iff.mp hs with hs | hs
  · cases hs; exact hc hm
  · exact h c' r' hs hm

theorem oneMapping_redefineIn (a b : String) (st : List Frame) (h : OneMapping st) : OneMapping (redefineIn a b st) := by
  induction st with
  | nil => exact h
  | cons c r ih =>
    unfold redefineIn
    cases hm : c.mapping with
    | none => exact oneMapping_cons (ih (oneMapping_tail h)) (fun h' => absurd hm h')
    | some m =>
      exact oneMapping_cons (oneMapping_tail h) (fun _ => h c r (List.suffix_refl _) (by rw [hm]; simp))

/-- The contexts are as the events say. -/
structure Reflects (f : IdField) (p : List Ev) (st : List Frame) : Prop where
  some : st ≠ []
  paths : PathsOK p st
  maps : MapsOK f p st
  one : OneMapping st
  depth : p.foldl nest (.some 0) = .some (st.length - 1)

theorem Reflects.path {f : IdField} {p : List Ev} {st : List Frame} (h : Reflects f p st) :
    currentPath st = includePath p := by
  cases st with
  | nil => exact absurd rfl h.some
  | cons c r => exact h.paths.1

theorem Reflects.map {f : IdField} {p : List Ev} {st : List Frame} (h : Reflects f p st) :
    MapsTo f (inForce st) (redefinitionsInForce p) := by
  cases st with
  | nil => exact absurd rfl h.some
  | cons c r => exact h.maps.1

theorem Reflects.stands {f : IdField} {p : List Ev} {st : List Frame} (h : Reflects f p st) (u v : String) :
    StandsForAt f p u v ↔ mapOf (inForce st) u = v := h.map.2 u v

theorem reflects_start (f : IdField) : Reflects f [] [⟨none, []⟩] := by
  refine ⟨by simp, ⟨rfl, trivial⟩, ⟨⟨by simp [inForce, redefinitionsInForce], fun u v => ?_⟩, trivial⟩, ?_, rfl⟩
  · show StandsFor f [] u v ↔ u = v
    constructor
    · intro h; cases h; rfl
    · rintro rfl; exact .start
  · exact oneMapping_cons (by intro c r hs; simp at hs) (fun h => absurd rfl h)

theorem reflects_idle {f : IdField} {p : List Ev} {st : List Frame} {e : Ev} (he : Idle e) (h : Reflects f p st) :
    Reflects f (p ++ [e]) st := by
  refine ⟨h.some, paths_congr (fun x => ?_) st h.paths, maps_congr (fun x => ?_) st h.maps, h.one, ?_⟩
  · rw [List.append_assoc]; exact (path_flat he.1 p x).symm
  · rw [List.append_assoc]; exact (force_idle he p x).symm
  · rw [List.foldl_append, List.foldl_cons, List.foldl_nil, nest_flat he.1]; exact h.depth

theorem reflects_enter {f : IdField} {p : List Ev} {st : List Frame} (file : Option String) (h : Reflects f p st) :
    Reflects f (p ++ [.enter file]) (⟨none, currentPath st ++ file.toList⟩ :: st) := by
  refine ⟨by simp, ⟨?_, paths_congr (fun x => ?_) st h.paths⟩, ⟨?_, maps_congr (fun x => ?_) st h.maps⟩,
    oneMapping_cons h.one (fun h' => absurd rfl h'), ?_⟩
  · rw [path_enter, ← h.path]
  · simpa using (path_pair file p x).symm
  · rw [force_enter]; exact h.map
  · simpa using (force_pair file p x).symm
  · rw [List.foldl_append, h.depth]
    have : st.length ≠ 0 := fun h0 => h.some (List.length_eq_zero_iff.mp h0)
    show some (st.length - 1 + 1) = some (st.length + 1 - 1)
    congr 1; omega

theorem reflects_leave {f : IdField} {p : List Ev} {c c' : Frame} {r : List Frame} (h : Reflects f p (c :: c' :: r)) :
    Reflects f (p ++ [.leave]) (c' :: r) := by
  refine ⟨by simp, h.paths.2, h.maps.2, oneMapping_tail h.one, ?_⟩
  rw [List.foldl_append, h.depth]
  rfl

theorem leave_open {f : IdField} {p : List Ev} {st : List Frame} (h : Reflects f p st) :
    StaysOpen (p ++ [.leave]) ↔ ∃ c c' r, st = c :: c' :: r := by
  unfold StaysOpen
  rw [List.foldl_append, h.depth]
  cases st with
  | nil => exact absurd rfl h.some
  | cons c r =>
    cases r with
    | nil => simp [nest]
    | cons c' r' => simp [nest]

theorem reflects_redefine {f : IdField} {p : List Ev} {st : List Frame} (a b : String) (h : Reflects f p st) :
    Reflects f (p ++ [.redefine a b])
      (redefineAt (mapOf (inForce st) (f.strip a)) (mapOf (inForce st) (f.strip b)) st) := by
  have hf : Flat (.redefine a b) := ⟨(fun _ h => nomatch h), (fun h => nomatch h)⟩
  have hp := redefineAt_paths (mapOf (inForce st) (f.strip a)) (mapOf (inForce st) (f.strip b)) st
  have hlen := congrArg List.length hp
  simp only [List.length_map] at hlen
  refine ⟨?_, ?_, ?_, ?_, ?_⟩
  · intro h0
    rw [h0] at hlen
    exact h.some (List.length_eq_zero_iff.mp hlen.symm)
  · apply paths_of_paths hp.symm
    refine paths_congr (fun x => ?_) st h.paths
    rw [List.append_assoc]; exact (path_flat hf p x).symm
  · unfold redefineAt
    cases hm : inForce st with
    | some m =>
      have := maps_inner (f := f) (a := a) (b := b) (p := p) st 0 m h.one hm (by simpa using h.maps)
      exact this
    | none =>
      cases st with
      | nil => exact trivial
      | cons c r =>
        obtain ⟨h1, h2⟩ := h.maps
        have hr : inForce r = none := by
          unfold inForce at hm
          cases hc : c.mapping with
          | none => rw [hc] at hm; exact hm
          | some m => rw [hc] at hm; cases hm
        refine ⟨?_, ?_⟩
        · have h0 := h1.1.mp hm
          have := force_redefine a b p 0
          simp only [List.replicate, List.append_nil, if_true] at this
          rw [this, if_pos h0]
          exact mapsTo_first a b
        · have := maps_outer (f := f) (a := a) (b := b) (p := p) r 1 (by omega) hr h2
          simpa using this
  · unfold redefineAt
    cases hm : inForce st with
    | some m => exact oneMapping_redefineIn _ _ st h.one
    | none =>
      cases st with
      | nil => exact h.one
      | cons c r =>
        refine oneMapping_cons (oneMapping_tail h.one) (fun _ => ?_)
        unfold inForce at hm
        cases hc : c.mapping with
        | none => rw [hc] at hm; exact hm
        | some m => rw [hc] at hm; cases hm
  · rw [hlen, List.foldl_append, List.foldl_cons, List.foldl_nil, nest_flat hf]
    exact h.depth

end ZS.Props
