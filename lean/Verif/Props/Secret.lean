import Verif.Lemmas.Tracks
import Verif.Props.Mediation
import Verif.Lemmas.PresOps

/-!
# C60: Noninterference

What a program can find out by using proxies does not depend on what it is refused.
-/

namespace ZS.Props
open Spec
variable {A : Type}

/-- **C60** While a proxy is used, the package itself asks application code only the questions of a
short list (`Internal`): for the object's own checker, for `__iter__`, for the names in the default
text, policies, checker factories and foreign checkers. -/
theorem C60_questions (X : Ctx A) (p : Val) (op : POp) (s : St A) :
    NewEvents s (pop X p op s).2 (fun e => ∀ r, e = .probed r → Internal X.W r) := by
  obtain ⟨es, h1, h2, _⟩ := Tracks.pop (S := fun _ => False) (X := X) (f := X.W.apply) (fun _ _ _ => rfl) p op s
  exact ⟨es, h1, fun e he r hr => h2 r (hr ▸ he)⟩

/-- **C60** Two worlds that differ only in operations that are neither allowed by the checker (in
the sense of C13) nor among the package's own questions: the operation has the same result
and the same effect in both. -/
theorem C60_operation (X : Ctx A) (hW : X.impl = .py → ∀ id, NotRepointed X.W id) (S : RawOp → Prop)
    (f : RawOp → St A → Res Val × St A) (hf : DifferIn S X f) (p : Val) (op : POp) (s : St A)
    (hq : ∀ r, S r → ¬ Internal X.W r) (ha : ∀ r, S r → ¬ Allowed X p op s r) :
    pop (alter X f) p op s = pop X p op s := by
  by_cases hp : IsProxy p
  · obtain ⟨es, h1, h2, h3⟩ := Tracks.pop hf p op s
    have hm : NewEvents s (pop X p op s).2 (Only (Allowed X p op s)) := by
      cases hX : X.impl with
      | c => exact C13_mediation_c X hX p hp op s
      | py => exact C13_mediation_py X hX (hW hX) p hp op s
    obtain ⟨es', h1', h2'⟩ := hm
    have : es' = es := by rw [h1] at h1'; exact (List.append_cancel_left h1').symm
    subst this
    refine h3 fun e he hS => ?_
    cases e with
    | probed r => exact hq r hS (h2 r he)
    | performed r => exact ha r hS (h2' _ he)
  · cases p with
    | proxy i w c => exact absurd ⟨i, w, c, rfl⟩ hp
    | _ => rfl

/-- **C60** A program that uses proxies, choosing each step by everything it has seen so far, sees
the same in two worlds that differ only in what it is refused, and leaves the same state. -/
theorem C60_program (X : Ctx A) (hW : X.impl = .py → ∀ id, NotRepointed X.W id) (S : RawOp → Prop)
    (f : RawOp → St A → Res Val × St A) (hf : DifferIn S X f) (hq : ∀ r, S r → ¬ Internal X.W r) (k : Program A) (n : Nat)
    (seen : List (Res Val)) (s : St A)
    (ha : Throughout (fun _ v op s => ∀ r, S r → ¬ Allowed X v op s r) X k n seen s) :
    observe (alter X f) k n seen s = observe X k n seen s := by
  induction n generalizing seen s with
  | zero => rfl
  | succ n ih =>
    unfold observe
    unfold Throughout at ha
    cases hk : k seen with
    | none => rfl
    | some a =>
      rw [hk] at ha
      cases a with
      | wait g => exact ih _ _ ha
      | use v op =>
        obtain ⟨h1, h2⟩ := ha
        simp only [C60_operation X hW S f hf v op s hq h1]
        rcases hp : pop X v op s with ⟨r, s'⟩
        rw [hp] at h2
        cases r with
        | ok a => exact ih _ _ h2
        | err e => exact ih _ _ h2
        | diverge => rfl

/-! ## Names that are hidden from everybody -/

theorem hidden_paranoid {s : St A} {i : Nat} (h : ∃ p ∈ (s.ixs i).participations, (s.parts p).principal ≠ .system)
    (perm : Val) (hp : perm ≠ publicV) : paranoidCheck s i perm = false := by
  obtain ⟨p, h1, h2⟩ := h
  unfold paranoidCheck
  rw [if_neg hp]
  simp only [List.isEmpty_eq_false_iff]
  intro h
  have := List.filter_eq_nil_iff.mp h _ (List.mem_map_of_mem h1)
  simp [h2] at this

theorem hidden_ask {X : Ctx A} {s : St A} (h : GrantsNothing X.tid s) (perm o : Val) (hp : perm ≠ publicV) :
    (∃ e, askInteraction X perm o s = (.err e, s)) ∨ askInteraction X perm o s = (.ok false, s) := by
  unfold askInteraction
  rcases h with h | ⟨i, h, h1, h2⟩
  · refine .inl ⟨.attributeError "interaction", ?_⟩
    rw [run_bind, run_get]
    simp only [h]
    rfl
  · refine .inr ?_
    rw [run_bind, run_get]
    simp only [h]
    rw [run_bind]
    unfold ixCheckPermission
    simp only [run_bind, run_get, h1, hidden_paranoid h2 perm hp]
    rfl

/-- A hidden name is refused by every checker of the package, without side effects. -/
theorem hidden_refused (X : Ctx A) (H : Val → Name → M A Bool) (N : Name → Prop) (s : St A) (hs : Hidden N X.tid s)
    (n : Name) (hn : N n) (hi : n ≠ "__iter__") (w c : Val) (hc : Ordinary c) (k : CheckKind) :
    ∃ e, chkCheck X H k c w n s = (.err e, s) := by
  obtain ⟨hav, hd⟩ := hs n hn
  have ask : ∀ p, p ≠ publicV → GrantsNothing X.tid s →
      ∃ e, (if p = publicV then (pure () : M A Unit) else do
        let b ← askInteraction X p w
        if b then pure () else M.throw (.unauthorized w n p)) s = (.err e, s) := by
    intro p hp hg
    rw [if_neg hp]
    rcases hidden_ask hg p w hp with ⟨e, h⟩ | h
    · exact ⟨e, by rw [run_bind, h]⟩
    · exact ⟨_, by rw [run_bind, h]; rfl⟩
  have read : ∀ g, ∃ e, plainCheck X H g w n s = (.err e, s) := by
    intro g
    unfold plainCheck
    cases X.impl with
    | py =>
      simp only
      unfold plainCheckPy
      rw [run_bind, run_get]
      simp only
      unfold lookupPy
      cases hg : (s.dicts g).get? n with
      | none => exact ⟨_, by simp [hav, hi]; rfl⟩
      | some p =>
        cases p with
        | none => exact ⟨_, by simp [hav, hi]; rfl⟩
        | _ => exact ask _ (hd g _ hg).1 (hd g _ hg).2
    | c =>
      simp only
      unfold plainCheckC
      rw [run_bind, run_get]
      simp only
      cases hg : (s.dicts g).get? n with
      | none => exact ⟨_, by simp [hav, hi]; rfl⟩
      | some p => exact ask _ (hd g _ hg).1 (hd g _ hg).2
  have write : ∀ g, ∃ e, plainSetattr X g w n s = (.err e, s) := by
    intro g
    unfold plainSetattr
    cases X.impl with
    | py =>
      simp only
      unfold plainSetattrPy
      rw [run_bind, run_get]
      simp only
      by_cases he : (s.dicts g).isEmpty = true
      · rw [if_pos he]; exact ⟨_, rfl⟩
      · rw [if_neg he]
        unfold lookupPy
        cases hg : (s.dicts g).get? n with
        | none => exact ⟨_, rfl⟩
        | some p =>
          cases p with
          | none => exact ⟨_, rfl⟩
          | _ => exact ask _ (hd g _ hg).1 (hd g _ hg).2
    | c =>
      simp only
      unfold plainSetattrC
      rw [run_bind, run_get]
      simp only
      cases hg : (s.dicts g).get? n with
      | none => exact ⟨_, rfl⟩
      | some p => exact ask _ (hd g _ hg).1 (hd g _ hg).2
  have comb : ∀ x y : M A Unit, (∃ e, x s = (.err e, s)) → (∃ e, y s = (.err e, s)) → ∃ e, combine x y s = (.err e, s) := by
    rintro x y ⟨e, hx⟩ ⟨e', hy⟩
    unfold combine
    rw [hx]
    simp only
    split
    · exact ⟨e', hy⟩
    · split
      · rw [run_tryCatch, hy]
        simp only
        split
        · exact ⟨e, rfl⟩
        · exact ⟨e', rfl⟩
      · exact ⟨e, rfl⟩
  induction c generalizing k with
  | checker id g st =>
    cases k
    · exact read g
    · exact read g
    · exact write st
  | combined id g st c2 ih =>
    cases k
    · exact comb _ _ (read g) (ih hc _)
    · exact comb _ _ (read g) (ih hc _)
    · exact comb _ _ (write st) (ih hc _)
  | _ => exact hc.elim

/-- What is allowed on a name is allowed only by a check of that name. -/
theorem named_need (impl : Impl) (p : Val) (op : POp) (q : Need) (hq : need impl p op = some q) (N : Name → Prop)
    (hN : ∀ n ∈ openNames impl, ¬ N n) (w : Val) (ro : RawOp) (hr : Carries impl op q w ro) (h : Named N ro) :
    N q.name := by
  cases op <;> cases impl <;> simp only [need] at hq <;> (try split at hq) <;> (try split at hq) <;> (try split at hq) <;>
    (try (cases hq; done)) <;> cases hq <;> simp only [Carries] at hr <;>
    first
    | (subst hr; exact h)
    | (subst hr; exact h.elim)
    | skip
  next b o =>
    rcases hr with rfl | rfl | ⟨m, rfl⟩
    · exact h
    · refine absurd h (hN _ ?_)
      cases b <;> decide
    · exact h.elim

/-- Nothing that an operation may do concerns a hidden name. -/
theorem hidden_not_allowed (X : Ctx A) (N : Name → Prop) (hN : ∀ n ∈ openNames X.impl, ¬ N n) (p : Val) (op : POp)
    (s : St A) (hs : Hidden N X.tid s) (ho : OrdinaryActor X.impl p op s) (r : RawOp) (hr : Named N r) :
    ¬ Allowed X p op s r := by
  have hiter : ¬ N "__iter__" := hN _ (by cases X.impl <;> decide)
  intro h
  unfold Allowed at h
  cases hq : need X.impl p op with
  | some q =>
    rw [hq] at h
    obtain ⟨w, c, hcur, h | ⟨h, s1, h2⟩⟩ := h
    · obtain ⟨h1, _, h⟩ := h
      cases hX : X.impl with
      | c => rw [hX] at h; obtain ⟨v, _, rfl⟩ := h; exact hiter (h1 ▸ hr)
      | py => rw [hX] at h; obtain ⟨v, rfl⟩ := h; exact hiter (h1 ▸ hr)
    · have hn := named_need X.impl p op q hq N hN w r h hr
      obtain ⟨e, he⟩ := hidden_refused X (hasattrX X) N s hs q.name hn (fun h => hiter (h ▸ hn)) w c (ho q hq w c hcur) q.kind
      rw [he] at h2; cases h2
  | none =>
    rw [hq] at h
    obtain ⟨w, c, _, h⟩ := h
    cases op with
    | compare b o => simp only [Free] at h; subst h; exact hr
    | hash => simp only [Free] at h; subst h; exact hN _ (by cases X.impl <;> decide) hr
    | bool => simp only [Free] at h; subst h; exact hN _ (by cases X.impl <;> decide) hr
    | lengthHint =>
      simp only [Free] at h
      cases hX : X.impl with
      | c => rw [hX] at h; simp only at h; subst h; exact hr
      | py =>
        rw [hX] at h
        rcases h with rfl | ⟨m, rfl⟩
        · exact hN _ (by rw [hX]; decide) hr
        · exact hr
    | getattr n b =>
      obtain ⟨h1, h2, rfl⟩ := h
      refine hN n ?_ hr
      rw [h1]
      simp only [freeAttrs, List.mem_cons, List.not_mem_nil, or_false] at h2
      rcases h2 with rfl | rfl | rfl | rfl | rfl | rfl | rfl | rfl | rfl <;> decide
    | _ => exact h

theorem hidden_not_internal (W : World A) (impl : Impl) (N : Name → Prop) (hN : ∀ n ∈ openNames impl, ¬ N n) (r : RawOp) (hr : Named N r) :
    ¬ Internal W r := by
  intro h
  cases h with
  | ownChecker => exact hN _ (by cases impl <;> decide) hr
  | iterable => exact hN _ (by cases impl <;> decide) hr
  | theClass => exact hN _ (by cases impl <;> decide) hr
  | className _ h => rcases h with rfl | rfl <;> exact hN _ (by cases impl <;> decide) hr
  | policy => exact hr
  | factory => exact hr
  | foreignCheck => exact hr
  | foreignProxy => exact hr

/-- **C60** Hidden names: attributes and special methods that are not declared at all, or only with
non-public permissions while the interaction is of the restrictive built-in policy with an
ordinary user.  As long as that stays so, no program using proxies of the package's checkers can
tell anything about them: in a world where every attribute and special method of these names
behaves differently, it sees the same. -/
theorem C60_hidden_names (X : Ctx A) (hW : X.impl = .py → ∀ id, NotRepointed X.W id) (N : Name → Prop)
    (hN : ∀ n ∈ openNames X.impl, ¬ N n) (hkeep : ∀ r s, Hidden N X.tid s → Hidden N X.tid (X.W.apply r s).2)
    (f : RawOp → St A → Res Val × St A) (hf : DifferIn (Named N) X f) (k : Program A)
    (hk : ∀ seen g, k seen = some (.wait g) → ∀ s, Hidden N X.tid s → Hidden N X.tid (g s)) (n : Nat)
    (seen : List (Res Val)) (s : St A) (hs : Hidden N X.tid s)
    (ho : Throughout (fun _ v op s => OrdinaryActor X.impl v op s) X k n seen s) :
    observe (alter X f) k n seen s = observe X k n seen s := by
  have keeps : Keeps (Hidden N X.tid) X.W := {
    apply := hkeep
    trace := fun _ _ h => h
    nextId := fun _ h => h }
  refine C60_program X hW (Named N) f hf (hidden_not_internal X.W X.impl N hN) k n seen s ?_
  induction n generalizing seen s with
  | zero => trivial
  | succ n ih =>
    unfold Throughout at ho ⊢
    cases hks : k seen with
    | none => trivial
    | some a =>
      rw [hks] at ho
      cases a with
      | wait g => exact ih _ _ (hk _ _ hks _ hs) ho
      | use v op =>
        obtain ⟨h1, h2⟩ := ho
        refine ⟨fun r hr => hidden_not_allowed X N hN v op s hs h1 r hr, ?_⟩
        have hs' := Pres.pop keeps v op (fun _ => ⟨fun _ _ h => h, fun _ _ h => h⟩) s hs
        rcases hp : pop X v op s with ⟨r, s'⟩
        rw [hp] at h2 hs'
        cases r with
        | ok a => exact ih _ _ hs' h2
        | err e => exact ih _ _ hs' h2
        | diverge => trivial

/-! ## Examples -/

/-- The example world, with another value of the attributes `secret` and `c`. -/
def otherSecret : RawOp → St Unit → Res Val × St Unit
  | .getattr v n, s => if n = "secret" ∨ n = "c" then (.ok (.obj 99), s) else Ex.W.apply (.getattr v n) s
  | r, s => Ex.W.apply r s

/-- A program that asks for the attribute `secret`, then for `c`, lets somebody empty the registry of
checkers, and calls the object if it has seen no error. -/
def curious : Program Unit := fun seen =>
  match seen with
  | [] => some (.use (.proxy 70 (.obj 1) Ex.c1) (.getattr "secret" false))
  | [_] => some (.use (.proxy 70 (.obj 1) Ex.c1) (.getattr "c" false))
  | [_, _] => some (.wait fun s => { s with reg := [] })
  | [.ok _, _, _] => some (.use (.proxy 70 (.obj 1) Ex.c1) (.call []))
  | _ => some (.use (.proxy 70 (.obj 1) Ex.c1) .str)

/-- The example world leaves the state alone. -/
theorem example_apply (r : RawOp) (s : St Unit) : (Ex.W.apply r s).2 = s := by
  simp only [Ex.W]; split <;> rfl

theorem example_hidden : Hidden (fun n => n = "secret" ∨ n = "c") 0 (Ex.s1 none) := by
  rintro n (rfl | rfl)
  · refine ⟨by decide, fun d p hd => ⟨?_, .inl rfl⟩⟩
    simp only [Ex.s1, Ex.s0, initial] at hd
    split at hd
    · cases hd
    · split at hd
      · cases hd
      · unfold initialDicts at hd
        split at hd <;> exact absurd hd (by decide +revert)
  · refine ⟨by decide, fun d p hd => ⟨?_, .inl rfl⟩⟩
    simp only [Ex.s1, Ex.s0, initial] at hd
    split at hd
    · cases hd; decide
    · split at hd
      · cases hd
      · unfold initialDicts at hd
        split at hd <;> cases hd

theorem example_ordinary (impl : Impl) (op : POp) (s : St Unit) (h1 : s.ovC 70 = none)
    (hop : ∀ q, need impl (.proxy 70 (.obj 1) Ex.c1) op = some q → q.actor = .proxy 70 (.obj 1) Ex.c1) :
    OrdinaryActor impl (.proxy 70 (.obj 1) Ex.c1) op s := by
  intro q hq w c hc
  rw [hop q hq] at hc
  cases impl with
  | c => cases hc; trivial
  | py => simp only [current, h1] at hc; cases hc; trivial

/-- The hypotheses of `C60_hidden_names` for that program, with `secret` not declared and `c` declared
with a permission. -/
example (impl : Impl) : observe (alter (Ex.X impl) otherSecret) curious 4 [] (Ex.s1 none)
    = observe (Ex.X impl) curious 4 [] (Ex.s1 none) := by
  refine C60_hidden_names (Ex.X impl) (fun _ id r s => ?_) (fun n => n = "secret" ∨ n = "c") ?_ ?_ otherSecret ?_ curious ?_ 4 []
    (Ex.s1 none) example_hidden ?_
  · rw [show (Ex.X impl).W.apply r s = Ex.W.apply r s from rfl, example_apply]; exact ⟨rfl, rfl⟩
  · rintro n hn (rfl | rfl) <;> cases impl <;> exact absurd hn (by decide)
  · intro r s h; rw [show (Ex.X impl).W.apply r s = Ex.W.apply r s from rfl, example_apply]; exact h
  · intro r s h
    cases r with
    | getattr v n => exact if_neg h
    | _ => rfl
  · intro seen g hg s hs
    unfold curious at hg
    split at hg <;> cases hg
    exact hs
  · cases impl
    all_goals
      refine ⟨?_, ?_, ?_, trivial⟩
      all_goals exact example_ordinary _ _ _ rfl (by intro q h; cases h; rfl)

/-- In the other direction: what is declared public can be told. -/
example : ∃ (f : RawOp → St Unit → Res Val × St Unit), DifferIn (Named fun n => n = "a") (Ex.X .c) f
    ∧ observe (alter (Ex.X .c) f) (fun _ => some (.use (.proxy 70 (.obj 1) Ex.c1) (.getattr "a" false))) 1 [] (Ex.s1 none)
      ≠ observe (Ex.X .c) (fun _ => some (.use (.proxy 70 (.obj 1) Ex.c1) (.getattr "a" false))) 1 [] (Ex.s1 none) := by
  refine ⟨fun r s => match r with
    | .getattr v n => if n = "a" then (.err (.attributeError "a"), s) else Ex.W.apply (.getattr v n) s
    | r => Ex.W.apply r s, ?_, ?_⟩
  · intro r s h
    cases r with
    | getattr v n => exact if_neg h
    | _ => rfl
  · intro h
    have := congrArg (fun x => x.1) h
    exact absurd this (by decide)

/-- **C60** The exception of `openNames` is needed: with nothing declared, nothing available by default, and no interaction, a
program can still tell whether an object has an `__iter__`, and hashes it. -/
theorem C60_open_names (impl : Impl) (n : Name) (hn : n = "__iter__" ∨ n = "__hash__") :
    ∃ (X : Ctx Unit) (s : St Unit) (f : RawOp → St Unit → Res Val × St Unit) (op : POp), X.impl = impl
      ∧ Hidden (fun m => m = n) X.tid s ∧ DifferIn (Named fun m => m = n) X f
      ∧ OrdinaryActor impl (.proxy 70 (.obj 2) Ex.c1) op s
      ∧ (pop (alter X f) (.proxy 70 (.obj 2) Ex.c1) op s).1 ≠ (pop X (.proxy 70 (.obj 2) Ex.c1) op s).1 := by
  refine ⟨Ex.X impl, { Ex.s1 none with dicts := fun _ => [], avail := [] }, fun r s => match r with
    | .getattr v m => if m = n then (.err (.attributeError n), s) else Ex.W.apply (.getattr v m) s
    | .special m v a => if m = n then (.err (.attributeError n), s) else Ex.W.apply (.special m v a) s
    | r => Ex.W.apply r s, if n = "__iter__" then .getattr "__iter__" false else .hash, rfl, ?_, ?_, ?_, ?_⟩
  · rintro m rfl
    refine ⟨?_, fun d p h => by cases h⟩
    simp
  · intro r s h
    cases r with
    | getattr v m => exact if_neg h
    | special m v a => exact if_neg h
    | _ => rfl
  · intro q hq w c hc
    rcases hn with rfl | rfl
    · cases impl <;> (cases hq; cases hc; trivial)
    · cases impl <;> cases hq
  · rcases hn with rfl | rfl <;> cases impl <;> intro h <;> cases h

end ZS.Props
