import Verif.Spec.Watching
import Verif.Lemmas.Checks
import Verif.Model.Proxy
import Verif.Examples.World

/-!
# C47 Watching checkers
-/

namespace ZS.Props
open ZS.Spec
variable {A : Type}

theorem logLine_harmless {X : Ctx A} {line : Line} (h : ReprHarmless X.W line.object) (v l : Int) (after : Res Unit) (s : St A) :
    logLine X v l line after s = ((after, s), if v ≥ l then [line] else []) := by
  obtain ⟨r, hr⟩ := h s
  unfold logLine reprOf
  rw [hr]

theorem logRefusal_harmless {X : Ctx A} {o : Val} (h : ReprHarmless X.W o) (v : Int) (k : CheckKind) (n : Name) (e : Exn) (s : St A) :
    (logRefusal X v k o n e s).1 = (.err e, s) := by
  unfold logRefusal
  split
  · rw [logLine_harmless (line := ⟨k, .unauthorized, n, o⟩) h]
  · split
    · rw [logLine_harmless (line := ⟨k, .forbidden, n, o⟩) h]
    · rfl

/-- **C47** Whatever the check it wraps and whatever the verbosity, a watched check has its outcome and effects. -/
theorem C47_transparent_one (X : Ctx A) (v : Int) (k : CheckKind) (o : Val) (n : Name) (inner : M A Unit)
    (h : ReprHarmless X.W o) (s : St A) : (watched X v k o n inner s).1 = inner s := by
  unfold watched
  rcases inner s with ⟨r, s1⟩
  cases r with
  | ok u =>
    cases u
    simp only
    split
    · rw [logLine_harmless (line := ⟨k, grantVerdict s1 k n, n, o⟩) h]
    · rfl
  | err e => exact logRefusal_harmless h v k n e s1
  | diverge => rfl

theorem half_transparent (X : Ctx A) (v : Option Int) (k : CheckKind) (o : Val) (n : Name) (inner : M A Unit)
    (h : ReprHarmless X.W o) (s : St A) : (half X v k o n inner s).1 = inner s := by
  cases v with
  | none => rfl
  | some v => exact C47_transparent_one X v k o n inner h s

theorem combineL_fst {f g : LM A} {f' g' : M A Unit} (hf : ∀ s, (f s).1 = f' s) (hg : ∀ s, (g s).1 = g' s) (s : St A) :
    (combineL f g s).1 = combine f' g' s := by
  unfold combineL combine
  rw [← hf s]
  rcases f s with ⟨⟨r, s1⟩, l⟩
  cases r with
  | ok u => rfl
  | diverge => rfl
  | err e =>
    by_cases h1 : e.isForbidden
    · simp only [h1, if_true]; exact hg s1
    · by_cases h2 : e.isUnauthorized
      · simp only [h1, h2, if_true, if_false, M.tryCatch, ← hg s1, Bool.false_eq_true]
        rcases g s1 with ⟨⟨r2, s2⟩, l2⟩
        cases r2 with
        | ok u => rfl
        | diverge => rfl
        | err e2 =>
          by_cases h3 : e2.isForbidden
          · simp only [h3, if_true]; rfl
          · simp only [h3, if_false, Bool.false_eq_true]
      · simp only [h1, h2, if_false, Bool.false_eq_true]

/-- **C47** Any mix of watching and plain checkers, combined in any way, decides and acts as the same
checkers without watching. -/
theorem C47_transparent (X : Ctx A) (H : Val → Name → M A Bool) (verb : Val → Option Int) (k : CheckKind) (c o : Val) (n : Name)
    (h : ReprHarmless X.W o) (s : St A) : (watchCheck X H verb k c o n s).1 = chkCheck X H k c o n s := by
  induction c generalizing k s with
  | checker i g st => cases k <;> exact half_transparent X _ _ o n _ h s
  | combined i g st c2 ih =>
    cases k
    · exact combineL_fst (half_transparent X _ _ o n _ h) (ih .check) s
    · exact combineL_fst (half_transparent X _ _ o n _ h) (ih .check) s
    · exact combineL_fst (half_transparent X _ _ o n _ h) (ih .setattr) s
  | _ => rfl

/-- **C47** Exactly the lines required: one per refusal from verbosity one, one per grant from verbosity
two, none for other exceptions. -/
theorem C47_log (X : Ctx A) (v : Int) (k : CheckKind) (o : Val) (n : Name) (inner : M A Unit) (h : ReprHarmless X.W o) (s : St A) :
    Reports v k n o (inner s).2.avail (inner s).1 (watched X v k o n inner s).2 := by
  unfold watched
  rcases hi : inner s with ⟨r, s1⟩
  cases r with
  | ok u =>
    cases u
    simp only
    by_cases hv : v > 1
    · rw [if_pos hv, logLine_harmless (line := ⟨k, grantVerdict s1 k n, n, o⟩) h]
      simp only
      rw [if_pos (by omega)]
      unfold grantVerdict
      cases k with
      | setattr => exact .grantedWrite hv rfl
      | check =>
        by_cases ha : n ∈ s1.avail
        · simp only [ha, if_true]; exact .availableRead hv (by simp) ha
        · simp only [ha, if_false]; exact .grantedRead hv (by simp) ha
      | getattr =>
        by_cases ha : n ∈ s1.avail
        · simp only [ha, if_true]; exact .availableRead hv (by simp) ha
        · simp only [ha, if_false]; exact .grantedRead hv (by simp) ha
    · rw [if_neg hv]; exact .grantedQuietly (by omega)
  | diverge => exact .hangs
  | err e =>
    show Reports v k n o s1.avail (.err e) (logRefusal X v k o n e s1).2
    unfold logRefusal
    by_cases hu : e.isUnauthorized
    · have : ∃ o' n' p, e = .unauthorized o' n' p := by cases e <;> simp_all [Exn.isUnauthorized]
      obtain ⟨o', n', p, rfl⟩ := this
      rw [if_pos hu, logLine_harmless (line := ⟨k, .unauthorized, n, o⟩) h]
      simp only
      by_cases hv : v ≥ 1
      · rw [if_pos hv]; exact .unauthorized hv
      · rw [if_neg hv]; exact .refusedQuietly (by omega)
    · rw [if_neg hu]
      by_cases hf : e.isForbidden
      · have : ∃ n' o', e = .forbidden n' o' := by cases e <;> simp_all [Exn.isForbidden]
        obtain ⟨n', o', rfl⟩ := this
        rw [if_pos hf, logLine_harmless (line := ⟨k, .forbidden, n, o⟩) h]
        simp only
        by_cases hv : v ≥ 1
        · rw [if_pos hv]; exact .forbidden hv
        · rw [if_neg hv]; exact .refusedQuietly (by omega)
      · rw [if_neg hf]; exact .otherError (by simpa using hu) (by simpa using hf)

/-- **C47** Without the assumption on `repr` the claim is false: at every verbosity, even 0, a refused check
raises whatever `repr` of the object raises instead of the refusal. -/
theorem C47_repr_replaces (X : Ctx A) (v : Int) (k : CheckKind) (o : Val) (n : Name) (inner : M A Unit) (s s1 s2 : St A) (e e' : Exn)
    (hi : inner s = (.err e, s1)) (he : e.isForbidden ∨ e.isUnauthorized)
    (hr : X.W.apply (.special "__repr__" o []) s1 = (.err e', s2)) :
    watched X v k o n inner s = ((.err e', s2), []) := by
  unfold watched
  rw [hi]
  simp only [logRefusal, logLine, reprOf, hr]
  by_cases hu : e.isUnauthorized
  · rw [if_pos hu]
  · rw [if_neg hu]
    rcases he with hf | hf
    · rw [if_pos hf]
    · exact absurd hf hu

/-- ... and at verbosity 2 a granted one does too, unless the exception is itself a refusal. -/
theorem C47_repr_denies (X : Ctx A) (v : Int) (hv : 1 < v) (k : CheckKind) (o : Val) (n : Name) (inner : M A Unit) (s s1 s2 : St A) (e' : Exn)
    (hi : inner s = (.ok (), s1)) (h1 : e'.isForbidden = false) (h2 : e'.isUnauthorized = false)
    (hr : X.W.apply (.special "__repr__" o []) s1 = (.err e', s2)) :
    watched X v k o n inner s = ((.err e', s2), []) := by
  unfold watched
  rw [hi]
  simp only [logLine, reprOf, hr, logRefusal, h1, h2]
  rw [if_pos hv]
  simp

/-- **C47** The lines of a combined checker are those of its halves, so that there can be a line about a
refusal although access is granted. -/
theorem C47_combined_log (X : Ctx A) (H : Val → Name → M A Bool) (verb : Val → Option Int) (i g st : Nat) (c2 o : Val) (n : Name)
    (s s1 : St A) (e : Exn) (hf : plainCheck X H g o n s = (.err e, s1)) (he : e.isForbidden ∨ e.isUnauthorized) (h : ReprHarmless X.W o) :
    (watchCheck X H verb .getattr (.combined i g st c2) o n s).2
      = (half X (verb (.combined i g st c2)) .check o n (plainCheck X H g o n) s).2 ++ (watchCheck X H verb .check c2 o n s1).2 := by
  have h1 := half_transparent X (verb (.combined i g st c2)) .check o n (plainCheck X H g o n) h s
  show (combineL (half X (verb (.combined i g st c2)) .check o n (plainCheck X H g o n)) (watchCheck X H verb .check c2 o n) s).2 = _
  unfold combineL
  rw [hf] at h1
  rcases hh : half X (verb (.combined i g st c2)) .check o n (plainCheck X H g o n) s with ⟨⟨r, t⟩, l⟩
  rw [hh] at h1
  cases h1
  by_cases h1 : e.isForbidden
  · simp only [h1, if_true]
  · rcases he with he | he
    · exact absurd he h1
    · simp only [h1, he, if_true, if_false, Bool.false_eq_true]
      rcases watchCheck X H verb .check c2 o n s1 with ⟨⟨r2, s2⟩, l2⟩
      cases r2 with
      | err e2 => simp only; split <;> rfl
      | _ => rfl

example : ReprHarmless Ex.W (.obj 1) := fun s => ⟨.obj 7, rfl⟩

/-- A combined watching checker: "a" is granted by the second half only, the log speaks of a refusal. -/
example : ∀ impl, watchCheck (Ex.X impl) (hasattrX (Ex.X impl)) (fun _ => some 1) .getattr (.combined 61 0 0 Ex.c1) (.obj 1) "a" (Ex.s1 none)
    = ((.ok (), Ex.s1 none), [⟨.check, .forbidden, "a", .obj 1⟩]) := by
  intro impl; cases impl <;> rfl

example : ∀ impl, watchCheck (Ex.X impl) (hasattrX (Ex.X impl)) (fun _ => some 2) .getattr Ex.c1 (.obj 1) "b" (Ex.s1 (some (.ix 3)))
    = ((.ok (), Ex.s1 (some (.ix 3))), [⟨.getattr, .granted, "b", .obj 1⟩]) := by
  intro impl; cases impl <;> rfl

end ZS.Props
