import Verif.Props.Ops
import Verif.Props.Combined
import Verif.Spec.Paranoid

/-!
# C51 Ordinary users under the paranoid policy
-/

namespace ZS.Props
open Spec
variable {A : Type}

theorem guest_config {X : Ctx A} {s s' : St A} (h : config s' = config s) (hg : Guest X s) : Guest X s' := by
  simp only [config, Config.mk.injEq] at h
  obtain ⟨_, _, _, _, _, h6, _, h8, h9⟩ := h
  obtain ⟨i, h1, h2, p, h3, h4⟩ := hg
  exact ⟨i, by rw [h6]; exact h1, by rw [h8]; exact h2, p, by rw [h8]; exact h3, by rw [h9]; exact h4⟩

theorem open_config {impl : Impl} {s s' : St A} (h : config s' = config s) (k : CheckKind) (c : Val) (n : Name)
    (ho : Open impl s' k c n) : Open impl s k c n := by
  simp only [config, Config.mk.injEq] at h
  obtain ⟨_, _, _, h4, h5, _⟩ := h
  induction c with
  | combined id g st c2 ih =>
    rcases ho with ho | ho
    · left; rw [h4, h5] at ho; exact ho
    · exact .inr (ih ho)
  | checker id g st => simp only [Open, h4, h5] at ho ⊢; exact ho
  | _ => exact ho

theorem guest_refused {X : Ctx A} {s s' : St A} {p o ix : Val} (hg : Guest X s) (hp : p ≠ publicV)
    (hix : (s.threads X.tid).interaction = some ix) : ¬ IxAnswer X.W s p o ix (.ok true) s' := by
  intro h
  obtain ⟨i, h1, h2, q, h3, h4⟩ := hg
  rw [h1] at hix
  cases hix
  cases h with
  | yes hb =>
    rcases hb with hb | hb | hb
    · rw [h2] at hb; cases hb
    · exact hp hb
    · exact h4 (hb q h3)
  | foreign h => exact h i rfl

/-- The keeper of the configuration. -/
theorem config_keeps {W : World A} (hW : ∀ r s, config (W.apply r s).2 = config s) (c : Config) :
    Keeps (fun s' : St A => config s' = c) W :=
  ⟨fun r s' h => (hW r s').trans h, fun _ _ h => h, fun _ h => h⟩

theorem open_check {impl : Impl} (s : St A) (c : Val) (n : Name) (h : Open impl s .check c n) : Open impl s .getattr c n := by
  induction c with
  | combined _ _ _ _ ih => exact h.imp_right (fun h => ih h)
  | _ => exact h

theorem guest_plain (X : Ctx A) (id g st : Nat) (k : CheckKind) (o : Val) (n : Name) (s : St A) (hg : Guest X s)
    (h : (chkCheck X (hasattrX X) k (.checker id g st) o n s).1 = .ok ()) :
    Open X.impl s k (.checker id g st) n ∨
      (k ≠ .setattr ∧ n = "__iter__" ∧ ∃ s1, config s1 = config s ∧ (hasattrX X o n s1).1 = .ok false) := by
  cases k with
  | setattr =>
    rcases (C02_write_granted_iff X _ id g st o n s).mp h with h | ⟨p, ix, s', _, h2, h3, h4⟩
    · exact .inl h
    · exact absurd h4 (guest_refused hg h2 h3)
  | _ =>
    rcases (C01_granted_iff X _ _ (by simp) id g st o n s).mp h with h | ⟨p, ix, s', _, h2, h3, h4⟩ | h | ⟨_, _, h1, h2⟩
    · exact .inl (.inl h)
    · exact absurd h4 (guest_refused hg h2 h3)
    · exact .inl (.inr h)
    · exact .inr ⟨by simp, h1, s, rfl, h2⟩

/-- **C51** A check made for an ordinary user under the paranoid policy grants a name only if a checker of
the chain declares it public or it is available by default; or it is `__iter__` and the object turned
out not to have it. -/
theorem C51_check (X : Ctx A) (hW : ∀ r s, config (X.W.apply r s).2 = config s) (k : CheckKind) (c o : Val) (n : Name)
    (hc : Ordinary c) (s : St A) (hg : Guest X s)
    (h : (chkCheck X (hasattrX X) k c o n s).1 = .ok ()) :
    Open X.impl s k c n ∨
      (k ≠ .setattr ∧ n = "__iter__" ∧ ∃ s1, config s1 = config s ∧ (hasattrX X o n s1).1 = .ok false) := by
  induction c generalizing s k with
  | checker id g st => exact guest_plain X id g st k o n s hg h
  | combined id g st c2 ih =>
    have keep : ∀ k s, config (chkCheck X (hasattrX X) k (.checker id g st) o n s).2 = config s := fun k s =>
      Pres.chkCheck (config_keeps hW _) (fun _ _ => .hasattrX (config_keeps hW _) _ _) k _ _ _ s rfl
    have first := fun k s hg h => guest_plain X id g st k o n s hg h
    -- the kind with which the second half is asked
    have opens : ∀ (k : CheckKind) (s : St A),
        Open X.impl s (if k = .setattr then .setattr else .check) c2 n → Open X.impl s k c2 n := by
      intro k s h
      cases k with
      | getattr => exact open_check s c2 n h
      | _ => exact h
    have hrun : chkCheck X (hasattrX X) k (.combined id g st c2) o n =
        combine (chkCheck X (hasattrX X) k (.checker id g st) o n)
          (chkCheck X (hasattrX X) (if k = .setattr then .setattr else .check) c2 o n) := by
      cases k <;> rfl
    rw [hrun] at h
    have hspec := (combine_spec _ _ s _).mp (rfl : combine (chkCheck X (hasattrX X) k (.checker id g st) o n)
          (chkCheck X (hasattrX X) (if k = .setattr then .setattr else .check) c2 o n) s = _)
    have second : ∀ r s1 s2, chkCheck X (hasattrX X) k (.checker id g st) o n s = (r, s1) →
        chkCheck X (hasattrX X) (if k = .setattr then .setattr else .check) c2 o n s1 = (.ok (), s2) →
        Open X.impl s k (.combined id g st c2) n ∨
          (k ≠ .setattr ∧ n = "__iter__" ∧ ∃ s1, config s1 = config s ∧ (hasattrX X o n s1).1 = .ok false) := by
      intro r s1 s2 h1 h2
      have hk := keep k s
      rw [h1] at hk
      rcases ih hc (k := if k = .setattr then .setattr else .check) (s := s1) (guest_config hk hg) (by rw [h2]) with h | ⟨h3, h4, s3, h5, h6⟩
      · exact .inl (.inr (open_config hk _ _ _ (opens k s1 h)))
      · refine .inr ⟨?_, h4, s3, h5.trans hk, h6⟩
        rintro rfl
        exact h3 rfl
    rcases hr : combine (chkCheck X (hasattrX X) k (.checker id g st) o n)
          (chkCheck X (hasattrX X) (if k = .setattr then .setattr else .check) c2 o n) s with ⟨r, s'⟩
    rw [hr] at h hspec
    simp only at h
    subst h
    cases hspec with
    | ok_any h1 =>
      rcases first k s hg (by rw [h1]) with h | h
      · refine .inl (.inl ?_)
        cases k <;> exact h
      · exact .inr h
    | forbidden_then h1 h2 => exact second _ _ _ h1 h2
    | unauth_ok h1 h2 => exact second _ _ _ h1 h2
  | _ => exact absurd hc id

/-- **C51** Under the paranoid policy an ordinary user's operation on a proxy with ordinary checkers is carried
out only if the required name is declared public in the acting proxy's checkers or available by
default.  (The exceptions are the documented ones of `__iter__`: iterating over an object without that
attribute, and the lookup of `__iter__` a check makes through a nested proxy.) -/
theorem C51_paranoid (X : Ctx A) (hW : ∀ r s, config (X.W.apply r s).2 = config s)
    (hR : X.impl = .py → ∀ id, NotRepointed X.W id) (p : Val) (hp : IsProxy p) (op : POp) (q : Need)
    (hq : need X.impl p op = some q) (s : St A) (w c : Val) (hcur : current X.impl s q.actor = some (w, c))
    (hc : Ordinary c) (hg : Guest X s) :
    NewEvents s (pop X p op s).2 (Only fun ro => NestedLookup X.impl w q.name ro ∨
      (Carries X.impl op q w ro ∧ (Open X.impl s q.kind c q.name ∨
        (q.name = "__iter__" ∧ ∃ s1, config s1 = config s ∧ (hasattrX X w q.name s1).1 = .ok false)))) := by
  have hm : NewEvents s (pop X p op s).2 (Only (Allowed X p op s)) := by
    cases hX : X.impl with
    | c => exact C13_mediation_c X hX p hp op s
    | py => exact C13_mediation_py X hX (hR hX) p hp op s
  refine hm.mono (only_mono fun ro h => ?_)
  simp only [Allowed, hq] at h
  obtain ⟨w', c', h1, h2⟩ := h
  rw [hcur] at h1
  cases h1
  refine h2.imp_right fun ⟨h3, s1, h4⟩ => ⟨h3, ?_⟩
  rcases C51_check X hW q.kind c w q.name hc s hg (by rw [h4]) with h | ⟨_, h5, h6⟩
  · exact .inl h
  · exact .inr ⟨h5, h6⟩

/-- An ordinary user reads the public name "a", while "b" and "c" are refused. -/
example :
    let s : St Unit := { Ex.s1 (some (.ix 0)) with ixs := fun _ => ⟨false, [0]⟩, parts := fun _ => ⟨.user "bob", .ix 0⟩ }
    Guest (Ex.X .c) s ∧ Ordinary Ex.c1 ∧ Open .c s .getattr Ex.c1 "a"
    ∧ (pop (Ex.X .c) (.proxy 70 (.obj 1) Ex.c1) (.getattr "a" false) s).1 = .ok (.proxy 100 (.obj 7) (.checker 1 2 3))
    ∧ ¬ Open .c s .getattr Ex.c1 "b"
    ∧ (pop (Ex.X .c) (.proxy 70 (.obj 1) Ex.c1) (.getattr "b" false) s).1 = .err (.unauthorized (.obj 1) "b" Ex.view) := by
  intro s
  refine ⟨⟨0, rfl, rfl, 0, by decide, by decide⟩, trivial, .inl ⟨rfl, by simp⟩, rfl, ?_, rfl⟩
  rintro (⟨h, _⟩ | ⟨h, _⟩)
  · revert h; decide
  · exact h Ex.view ⟨rfl, by simp⟩

end ZS.Props
