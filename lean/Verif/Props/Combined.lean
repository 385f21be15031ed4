import Verif.Lemmas.Checks
import Verif.Spec.Combine
import Verif.Model.Proxy
import Verif.Examples.World

/-!
# C04, C05: combined checkers
-/

namespace ZS.Props
open Spec
variable {A : Type}

theorem combine_spec (f g : M A Unit) (s : St A) (r : Res Unit × St A) :
    combine f g s = r ↔ CombineSpec f g s r := by
  constructor
  · rintro rfl
    unfold combine
    rcases hf : f s with ⟨r1, s1⟩
    cases r1 with
    | ok u => exact .ok_any hf
    | diverge => exact .hang hf
    | err e =>
      cases e <;> simp only [Exn.isForbidden, Exn.isUnauthorized, if_true, if_false, Bool.false_eq_true]
      case forbidden => exact .forbidden_then hf rfl
      case unauthorized =>
        rw [run_tryCatch]
        rcases hg : g s1 with ⟨r2, s2⟩
        cases r2 with
        | ok u => exact .unauth_ok hf hg
        | diverge => exact .unauth_hang hf hg
        | err e2 =>
          cases e2 <;> simp only [Exn.isForbidden, if_true, if_false, Bool.false_eq_true, run_throw]
          case forbidden => exact .unauth_forbidden hf hg
          case unauthorized => exact .unauth_unauth hf hg
          all_goals exact .unauth_error hf hg (by simp) (by simp)
      all_goals exact .error hf (by simp) (by simp)
  · intro h
    unfold combine
    cases h with
    | ok_any h => rw [h]
    | forbidden_then h h2 => rw [h]; simpa [Exn.isForbidden] using h2
    | unauth_ok h h2 => rw [h]; simp [Exn.isForbidden, Exn.isUnauthorized, run_tryCatch, h2]
    | unauth_unauth h h2 => rw [h]; simp [Exn.isForbidden, Exn.isUnauthorized, run_tryCatch, h2]
    | unauth_forbidden h h2 => rw [h]; simp [Exn.isForbidden, Exn.isUnauthorized, run_tryCatch, h2]
    | @unauth_error _ _ _ _ e _ h h2 h3 h4 =>
      rw [h]; simp only [Exn.isForbidden, Exn.isUnauthorized, run_tryCatch, h2]
      cases e <;> simp_all
    | unauth_hang h h2 => rw [h]; simp [Exn.isForbidden, Exn.isUnauthorized, run_tryCatch, h2]
    | @error e _ h h3 h4 => rw [h]; cases e <;> simp_all [Exn.isForbidden, Exn.isUnauthorized]
    | hang h => rw [h]

/-- **C04** A `CombinedChecker` built from any two checkers follows the documented table, for
reads and writes, in every state (also later ones, in which the permission dictionaries of
either checker may have changed), the first entry being what the first checker itself requires.
For an ordinary `Checker` that is all of it (`C04_ordinary_first`); the second half of a first
checker that is itself combined is not asked (see `C04_combined_first_drops_half`). -/
theorem C04_combined_table (X : Ctx A) (H : Val → Name → M A Bool) (c1 c2 cc : Val)
    (s0 s0' : St A) (hnew : newCombined c1 c2 s0 = (.ok cc, s0'))
    (k : CheckKind) (o : Val) (n : Name) (s : St A) (r : Res Unit × St A) :
    chkCheck X H k cc o n s = r ↔
      CombineSpec (chkCheck X H k (ownHalf c1) o n)
        (chkCheck X H (if k = .setattr then .setattr else .check) c2 o n) s r := by
  cases c1 with
  | checker i g st =>
    cases hnew
    cases k <;> simp only [chkCheck, ownHalf, reduceCtorEq, if_true, if_false] <;> exact combine_spec _ _ s r
  | combined i g st c =>
    cases hnew
    cases k <;> simp only [chkCheck, ownHalf, reduceCtorEq, if_true, if_false] <;> exact combine_spec _ _ s r
  | _ => cases hnew

/-- **C04** Combining succeeds exactly if the first is a `Checker` (ordinary or combined); the
second may be anything.  It only takes an address. -/
theorem C04_combinable (c1 c2 : Val) (s : St A) :
    ((∃ i g st, c1 = .checker i g st ∨ ∃ c, c1 = .combined i g st c) ∧
      ∃ cc, newCombined c1 c2 s = (.ok cc, { s with nextId := s.nextId + 1 }))
    ∨ ((∀ i g st, c1 ≠ .checker i g st ∧ ∀ c, c1 ≠ .combined i g st c) ∧
      newCombined c1 c2 s = (.err (.attributeError "get_permissions"), s)) := by
  cases c1 with
  | checker i g st => exact .inl ⟨⟨i, g, st, .inl rfl⟩, _, rfl⟩
  | combined i g st c => exact .inl ⟨⟨i, g, st, .inr ⟨c, rfl⟩⟩, _, rfl⟩
  | _ => exact .inr ⟨fun _ _ _ => ⟨(fun h => by cases h), fun _ h => by cases h⟩, rfl⟩

/-- **C04** The table for an ordinary first checker. -/
theorem C04_ordinary_first (X : Ctx A) (H : Val → Name → M A Bool) (id1 g st : Nat) (c2 cc : Val)
    (s0 s0' : St A) (hnew : newCombined (.checker id1 g st) c2 s0 = (.ok cc, s0'))
    (k : CheckKind) (o : Val) (n : Name) (s : St A) (r : Res Unit × St A) :
    chkCheck X H k cc o n s = r ↔
      CombineSpec (chkCheck X H k (.checker id1 g st) o n)
        (chkCheck X H (if k = .setattr then .setattr else .check) c2 o n) s r :=
  C04_combined_table X H _ c2 cc s0 s0' hnew k o n s r

/-- **C04** The documented table with concrete entries: each of the seven rows. -/
theorem C04_table_rows (X : Ctx A) (H : Val → Name → M A Bool) (id1 g st : Nat) (c2 cc : Val)
    (s0 s0' : St A) (hnew : newCombined (.checker id1 g st) c2 s0 = (.ok cc, s0'))
    (k : CheckKind) (hk : k ≠ .getattr) (o : Val) (n : Name) (s s1 s2 : St A) :
    (chkCheck X H k (.checker id1 g st) o n s = (.ok (), s1) → chkCheck X H k cc o n s = (.ok (), s1))
    ∧ (∀ e1, Refusal e1 → chkCheck X H k (.checker id1 g st) o n s = (.err e1, s1) →
        chkCheck X H k c2 o n s1 = (.ok (), s2) → chkCheck X H k cc o n s = (.ok (), s2))
    ∧ (∀ e1 o' n' p', Refusal e1 → chkCheck X H k (.checker id1 g st) o n s = (.err e1, s1) →
        chkCheck X H k c2 o n s1 = (.err (.unauthorized o' n' p'), s2) →
        chkCheck X H k cc o n s = (.err (.unauthorized o' n' p'), s2))
    ∧ (∀ e1 o' n', Refusal e1 → chkCheck X H k (.checker id1 g st) o n s = (.err e1, s1) →
        chkCheck X H k c2 o n s1 = (.err (.forbidden n' o'), s2) →
        chkCheck X H k cc o n s =
          (.err (match e1 with | .unauthorized a b c => .unauthorized a b c | _ => .forbidden n' o'), s2)) := by
  have key := C04_ordinary_first X H id1 g st c2 cc s0 s0' hnew k o n s
  have hk' : (if k = .setattr then CheckKind.setattr else .check) = k := by cases k <;> simp_all
  rw [hk'] at key
  refine ⟨fun h => (key _).mpr (.ok_any h), ?_, ?_, ?_⟩
  · rintro e1 (⟨a, b, rfl⟩ | ⟨a, b, c, rfl⟩) h1 h2
    · exact (key _).mpr (.forbidden_then h1 h2)
    · exact (key _).mpr (.unauth_ok h1 h2)
  · rintro e1 o' n' p' (⟨a, b, rfl⟩ | ⟨a, b, c, rfl⟩) h1 h2
    · exact (key _).mpr (.forbidden_then h1 h2)
    · exact (key _).mpr (.unauth_unauth h1 h2)
  · rintro e1 o' n' (⟨a, b, rfl⟩ | ⟨a, b, c, rfl⟩) h1 h2
    · exact (key _).mpr (.forbidden_then h1 h2)
    · exact (key _).mpr (.unauth_forbidden h1 h2)

/-- A second checker with dictionaries of its own: "z" public. -/
def exC2 : Val := .checker 61 32 33
/-- State with both checkers' dictionaries. -/
def exS (ix : Option Val) : St Unit :=
  { Ex.s1 ix with dicts := fun k => if k = 32 then [("z", publicV), ("b", publicV)] else (Ex.s1 ix).dicts k }

/-- The first checker refuses "c" (Unauthorized), the second forbids it, the combination is
Unauthorized; "b" is refused by the first and granted by the second. -/
example : ∃ cc s', newCombined Ex.c1 exC2 (exS (some (.obj 50))) = (.ok cc, s')
    ∧ (chkCheck (Ex.X .c) (hasattrX (Ex.X .c)) .check cc (.obj 1) "c" (exS (some (.obj 50)))).1
        = .err (.unauthorized (.obj 1) "c" Ex.edit)
    ∧ (chkCheck (Ex.X .c) (hasattrX (Ex.X .c)) .check cc (.obj 1) "z" (exS (some (.obj 50)))).1 = .ok () :=
  ⟨_, _, rfl, by decide, by decide⟩

/-- **C04** Where the first checker is itself combined the combination grants less than the two:
its second half is dropped, so a name it grants becomes forbidden. -/
theorem C04_combined_first_drops_half :
    ∃ (c1 c2 cc : Val) (s s1 : St Unit),
      newCombined c1 c2 s = (.ok cc, s1)
      ∧ (chkCheck (Ex.X .c) (hasattrX (Ex.X .c)) .check c1 (.obj 1) "z" s1).1 = .ok ()
      ∧ (chkCheck (Ex.X .c) (hasattrX (Ex.X .c)) .check cc (.obj 1) "z" s1).1 = .err (.forbidden "z" (.obj 1))
      ∧ (chkCheck (Ex.X .py) (hasattrX (Ex.X .py)) .check c1 (.obj 1) "z" s1).1 = .ok ()
      ∧ (chkCheck (Ex.X .py) (hasattrX (Ex.X .py)) .check cc (.obj 1) "z" s1).1 = .err (.forbidden "z" (.obj 1)) := by
  refine ⟨.combined 62 30 31 exC2, .checker 63 34 35, _, exS none, _, rfl, ?_, ?_, ?_, ?_⟩ <;> decide

/-! ## C05 chains -/

/-- The links of a right-nested combination, as computations: the first is asked with `k`, the
later ones with `k'`. -/
def links (X : Ctx A) (H : Val → Name → M A Bool) (k k' : CheckKind) (o : Val) (n : Name) :
    Val → List (St A → Res Unit × St A)
  | .combined id g st c2 => chkCheck X H k (.checker id g st) o n :: links X H k' k' o n c2
  | c => [chkCheck X H k c o n]

theorem chain_cons (f g : M A Unit) (gs : List (St A → Res Unit × St A)) (s : St A)
    (hg : ∀ s r, g s = r → ChainSpec gs s r) (r : Res Unit × St A) (h : combine f g s = r) :
    ChainSpec (f :: gs) s r := by
  -- prepend a refusal of `f` to a run of the rest
  have pre : ∀ (e1 : Exn) (s1 : St A) (r : Res Unit × St A), f s = (.err e1, s1) → Refusal e1 →
      ChainSpec gs s1 r →
      (∀ e s2, r = (.err e, s2) → Refusal e → (∃ n o, e = .forbidden n o) → ∃ n o, e1 = .forbidden n o) →
      ChainSpec (f :: gs) s r := by
    intro e1 s1 r hf he hr hcond
    cases hr with
    | granted hl hrf hok => exact .granted (pre := f :: _) (by rw [hl]; rfl) (.cons hf he hrf) hok
    | failed hl hrf hok hne => exact .failed (pre := f :: _) (by rw [hl]; rfl) (.cons hf he hrf) hok hne
    | hung hl hrf hok => exact .hung (pre := f :: _) (by rw [hl]; rfl) (.cons hf he hrf) hok
    | @refused es s2 e hrf hv =>
      refine .refused (.cons hf he hrf) ?_
      cases hv with
      | @allForbidden es n o hall =>
        obtain ⟨n1, o1, h1⟩ := hcond _ _ rfl (Or.inl ⟨n, o, rfl⟩) ⟨n, o, rfl⟩
        refine Verdict.allForbidden (es := e1 :: es) ?_
        intro e' he'
        rcases List.mem_cons.mp he' with h | h
        · exact ⟨n1, o1, h ▸ h1⟩
        · exact hall e' h
      | @lastUnauthorized es o n p fs hall => exact Verdict.lastUnauthorized (es := e1 :: es) hall
  have hs := (combine_spec f g s r).mp h
  clear h
  cases hs with
  | ok_any h => exact .granted (pre := []) rfl .nil h
  | hang h => exact .hung (pre := []) rfl .nil h
  | error h h1 h2 =>
    refine .failed (pre := []) rfl .nil h ?_
    rintro (⟨_, _, h⟩ | ⟨_, _, _, h⟩)
    · exact h1 _ _ h
    · exact h2 _ _ _ h
  | @forbidden_then n o s1 r h1 h2 => exact pre _ _ _ h1 (.inl ⟨n, o, rfl⟩) (hg _ _ h2) (fun _ _ _ _ _ => ⟨n, o, rfl⟩)
  | @unauth_ok o n p s1 s2 h1 h2 => exact pre _ _ _ h1 (.inr ⟨o, n, p, rfl⟩) (hg _ _ h2) (by simp)
  | @unauth_unauth o n p s1 o' n' p' s2 h1 h2 =>
    refine pre _ _ _ h1 (.inr ⟨o, n, p, rfl⟩) (hg _ _ h2) ?_
    rintro e s2 he - ⟨a, b, rfl⟩
    simp at he
  | @unauth_error o n p s1 e s2 h1 h2 h3 h4 =>
    refine pre _ _ _ h1 (.inr ⟨o, n, p, rfl⟩) (hg _ _ h2) ?_
    rintro e' s2' he - ⟨a, b, rfl⟩
    simp at he; exact absurd he.1 (h3 _ _)
  | @unauth_hang o n p s1 s2 h1 h2 => exact pre _ _ _ h1 (.inr ⟨o, n, p, rfl⟩) (hg _ _ h2) (by simp)
  | @unauth_forbidden o n p s1 o' n' s2 h1 h2 =>
    have hc := hg _ _ h2
    cases hc with
    | failed _ _ _ hne => exact absurd (Or.inl ⟨_, _, rfl⟩) hne
    | refused hrf hv =>
      refine .refused (.cons h1 (.inr ⟨o, n, p, rfl⟩) hrf) ?_
      cases hv with
      | @allForbidden es n1 o1 hall =>
        refine Verdict.lastUnauthorized (es := []) ?_
        intro e he
        rcases List.mem_append.mp he with h | h
        · exact hall e h
        · simp at h; exact ⟨_, _, h⟩

/-- **C05** Any right-nested combination, of any length, ending in any kind of checker, behaves as
`ChainSpec` says: the first link that grants decides (no later one is asked), a non-refusal
error of a link propagates, and if all refuse the last `Unauthorized` (or, if there is none, the
last `ForbiddenAttribute`) is raised. -/
theorem C05_chain (X : Ctx A) (H : Val → Name → M A Bool) (k : CheckKind) (o : Val) (n : Name) (c : Val) :
    ∀ (s : St A) (r : Res Unit × St A), chkCheck X H k c o n s = r →
      ChainSpec (links X H k (if k = .setattr then .setattr else .check) o n c) s r := by
  have base : ∀ (f : M A Unit) (s : St A) (r : Res Unit × St A), f s = r → ChainSpec [f] s r := by
    rintro f s ⟨r, s1⟩ h
    cases r with
    | ok u => exact .granted (pre := []) rfl .nil h
    | diverge => exact .hung (pre := []) rfl .nil h
    | err e =>
      by_cases he : Refusal e
      · refine .refused (.cons h he .nil) ?_
        rcases he with ⟨a, b, rfl⟩ | ⟨a, b, d, rfl⟩
        · exact Verdict.allForbidden (es := []) (by simp)
        · exact Verdict.lastUnauthorized (es := []) (by simp)
      · exact .failed (pre := []) rfl .nil h he
  induction c generalizing k with
  | combined id g st c2 ih =>
    intro s r h
    have ih' := ih (if k = .setattr then .setattr else .check)
    have hkk : (if (if k = .setattr then CheckKind.setattr else .check) = .setattr then CheckKind.setattr else .check)
        = (if k = .setattr then .setattr else .check) := by cases k <;> rfl
    rw [hkk] at ih'
    simp only [links]
    refine chain_cons _ _ _ s ih' r ?_
    cases k <;> simpa [chkCheck] using h
  | _ => intro s r h; exact base _ s r h

/-- **C05** The relation determines the outcome, so it characterises the chain exactly. -/
theorem C05_chain_exact (X : Ctx A) (H : Val → Name → M A Bool) (k : CheckKind) (o : Val) (n : Name) (c : Val)
    (s : St A) (r : Res Unit × St A) :
    chkCheck X H k c o n s = r ↔
      ChainSpec (links X H k (if k = .setattr then .setattr else .check) o n c) s r := by
  refine ⟨C05_chain X H k o n c s r, fun h => ?_⟩
  have h0 := C05_chain X H k o n c s _ rfl
  revert h0
  generalize chkCheck X H k c o n s = r0
  generalize links X H k (if k = .setattr then .setattr else .check) o n c = L at h
  intro h0
  -- two refusing prefixes of the same list are comparable
  have cmp : ∀ (L pre post pre' post' : List (St A → Res Unit × St A)) (s : St A) (es es' : List Exn) (s1 s1' : St A),
      L = pre ++ post → L = pre' ++ post' → Refusals pre s es s1 → Refusals pre' s es' s1' →
      (∃ f mid e, post = f :: mid ∧ (∃ s2, f s1 = (.err e, s2)) ∧ Refusal e)
      ∨ (∃ f mid e, post' = f :: mid ∧ (∃ s2, f s1' = (.err e, s2)) ∧ Refusal e)
      ∨ (pre = pre' ∧ post = post' ∧ es = es' ∧ s1 = s1') := by
    intro L pre post pre' post' s es es' s1 s1' h1 h2 h3 h4
    induction h3 generalizing L pre' es' with
    | nil =>
      cases h4 with
      | nil => right; right; simp_all
      | @cons f fs _ e es s3 _ hf he _ =>
        left
        exact ⟨f, fs ++ post', e, by simp_all, ⟨s3, hf⟩, he⟩
    | @cons f fs s e es s3 s4 hf he hr ih =>
      cases h4 with
      | nil => right; left; exact ⟨f, fs ++ post, e, by simp_all, ⟨s3, hf⟩, he⟩
      | @cons f' fs' _ e' es2 s3' _ hf' he' hr' =>
        subst h1
        simp only [List.cons_append, List.cons.injEq] at h2
        obtain ⟨rfl, h2⟩ := h2
        rw [hf] at hf'
        cases hf'
        rcases ih (fs ++ post) fs' es2 rfl h2 hr' with h | h | ⟨rfl, rfl, rfl, rfl⟩
        · exact .inl h
        · exact .inr (.inl h)
        · exact .inr (.inr ⟨rfl, rfl, rfl, rfl⟩)
  -- an outcome is of one of two forms
  have form : ∀ r, ChainSpec L s r →
      (∃ pre f post es s1, L = pre ++ f :: post ∧ Refusals pre s es s1 ∧ f s1 = r ∧
        ¬ ∃ e s2, r = (.err e, s2) ∧ Refusal e)
      ∨ (∃ es s1 e, Refusals L s es s1 ∧ Verdict es e ∧ r = (.err e, s1)) := by
    intro r h
    cases h with
    | granted h1 h2 h3 => exact .inl ⟨_, _, _, _, _, h1, h2, h3, by simp⟩
    | refused h1 h2 => exact .inr ⟨_, _, _, h1, h2, rfl⟩
    | failed h1 h2 h3 h4 => exact .inl ⟨_, _, _, _, _, h1, h2, h3, by rintro ⟨e, s2, he, hr⟩; cases he; exact h4 hr⟩
    | hung h1 h2 h3 => exact .inl ⟨_, _, _, _, _, h1, h2, h3, by simp⟩
  -- the verdict is unique
  have uniq : ∀ es e e', Verdict es e → Verdict es e' → e = e' := by
    intro es e e' h1 h2
    cases h1 with
    | @allForbidden es n o hall =>
      generalize hE : es ++ [Exn.forbidden n o] = E at h2
      cases h2 with
      | @allForbidden es' n' o' hall' =>
        exact (List.append_inj_right' hE rfl |> List.cons.inj).1
      | @lastUnauthorized es' o' n' p' fs hall' =>
        exfalso
        have : Exn.unauthorized o' n' p' ∈ es ++ [Exn.forbidden n o] := by rw [hE]; simp
        rcases List.mem_append.mp this with h | h
        · obtain ⟨_, _, h⟩ := hall _ h; cases h
        · simp at h
    | @lastUnauthorized es o n p fs hall =>
      generalize hE : es ++ Exn.unauthorized o n p :: fs = E at h2
      cases h2 with
      | @allForbidden es' n' o' hall' =>
        exfalso
        have : Exn.unauthorized o n p ∈ es' ++ [Exn.forbidden n' o'] := by rw [← hE]; simp
        rcases List.mem_append.mp this with h | h
        · obtain ⟨_, _, h⟩ := hall' _ h; cases h
        · simp at h
      | @lastUnauthorized es' o' n' p' fs' hall' =>
        rcases List.append_eq_append_iff.mp hE with ⟨a, h1, h2⟩ | ⟨a, h1, h2⟩
        · cases a with
          | nil => simp at h2; simp [h2]
          | cons x xs =>
            simp at h2
            have : Exn.unauthorized o' n' p' ∈ fs := by rw [h2.2]; simp
            obtain ⟨_, _, h⟩ := hall _ this; cases h
        · cases a with
          | nil => simp at h2; simp [h2]
          | cons x xs =>
            simp at h2
            have : Exn.unauthorized o n p ∈ fs' := by rw [h2.2]; simp
            obtain ⟨_, _, h⟩ := hall' _ this; cases h
  rcases form r0 h0 with ⟨pre, f, post, es, s1, hL, hr, hf, hn⟩ | ⟨es, s1, e, hr, hv, rfl⟩ <;>
  rcases form r h with ⟨pre', f', post', es', s1', hL', hr', hf', hn'⟩ | ⟨es', s1', e', hr', hv', rfl⟩
  · rcases cmp L pre (f :: post) pre' (f' :: post') s es es' s1 s1' hL hL' hr hr' with
      ⟨g, m, e, h1, ⟨s2, h2⟩, h3⟩ | ⟨g, m, e, h1, ⟨s2, h2⟩, h3⟩ | ⟨_, h2, _, rfl⟩
    · cases h1; exact absurd ⟨e, s2, by rw [← hf, h2], h3⟩ hn
    · cases h1; exact absurd ⟨e, s2, by rw [← hf', h2], h3⟩ hn'
    · cases h2; rw [← hf, ← hf']
  · rcases cmp L pre (f :: post) L [] s es es' s1 s1' hL (by simp) hr hr' with
      ⟨g, m, e, h1, ⟨s2, h2⟩, h3⟩ | ⟨g, m, e, h1, _, _⟩ | ⟨_, h2, _, _⟩
    · cases h1; exact absurd ⟨e, s2, by rw [← hf, h2], h3⟩ hn
    · cases h1
    · cases h2
  · rcases cmp L L [] pre' (f' :: post') s es es' s1 s1' (by simp) hL' hr hr' with
      ⟨g, m, e, h1, _, _⟩ | ⟨g, m, e, h1, ⟨s2, h2⟩, h3⟩ | ⟨_, h2, _, _⟩
    · cases h1
    · cases h1; exact absurd ⟨e, s2, by rw [← hf', h2], h3⟩ hn'
    · cases h2
  · rcases cmp L L [] L [] s es es' s1 s1' (by simp) (by simp) hr hr' with
      ⟨g, m, e, h1, _, _⟩ | ⟨g, m, e, h1, _, _⟩ | ⟨_, _, rfl, rfl⟩
    · cases h1
    · cases h1
    · rw [uniq _ _ _ hv hv']

/-- A chain of three links of which the last grants. -/
example : (chkCheck (Ex.X .c) (hasattrX (Ex.X .c)) .check
      (.combined 70 30 31 (.combined 71 40 41 exC2)) (.obj 1) "z" (exS (some (.obj 50)))).1 = .ok ()
    ∧ (chkCheck (Ex.X .c) (hasattrX (Ex.X .c)) .check
      (.combined 70 30 31 (.combined 71 40 41 exC2)) (.obj 1) "c" (exS (some (.obj 50)))).1
        = .err (.unauthorized (.obj 1) "c" Ex.edit) := by decide

end ZS.Props
