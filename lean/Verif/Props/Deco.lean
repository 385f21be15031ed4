import Verif.Spec.Deco
import Verif.Spec.Mediation
import Verif.Props.Combined
import Verif.Props.Select
import Verif.Examples.World

/-!
# C44 The checkers of decorated objects
-/

namespace ZS.Props
open ZS.Spec
variable {A : Type}

/-- The first half of `DecoratedSecurityCheckerDescriptor.__get__` for an object that is not
security-proxied. -/
def innerPlain (X : Ctx A) (v : Val) : M A Val := do
  let c ← orNone (getSC X v)
  if c = .none then selectChecker X v else pure c

theorem innerPlain_iff (X : Ctx A) (v : Val) (s : St A) (r : Res Val × St A) :
    innerPlain X v s = r ↔ PlainInner (getSC X v) (selectChecker X v) s r := by
  unfold innerPlain orNone
  rcases h : getSC X v s with ⟨r1, s1⟩
  have ht := run_tryCatch (getSC X v) Exn.isAttr (fun _ => Pure.pure Val.none) s
  rw [h] at ht
  cases r1 with
  | ok c =>
    rw [bind_ok ht]
    by_cases hc : c = .none
    · subst hc
      rw [if_pos rfl]
      constructor
      · intro h'; exact .noneOwn h h'
      · intro h'
        cases h' with
        | own h1 h2 => rw [h] at h1; cases h1; exact absurd rfl h2
        | noneOwn h1 h2 => rw [h] at h1; cases h1; exact h2
        | absent h1 => rw [h] at h1; cases h1
        | fails h1 => rw [h] at h1; cases h1
        | hangs h1 => rw [h] at h1; cases h1
    · rw [if_neg hc]
      constructor
      · rintro rfl; exact .own h hc
      · intro h'
        cases h' with
        | own h1 h2 => rw [h] at h1; cases h1; rfl
        | noneOwn h1 h2 => rw [h] at h1; cases h1; exact absurd rfl hc
        | absent h1 => rw [h] at h1; cases h1
        | fails h1 => rw [h] at h1; cases h1
        | hangs h1 => rw [h] at h1; cases h1
  | err e =>
    by_cases he : e.isAttr = true
    · simp only [he, if_true] at ht
      rw [bind_ok ht, if_pos rfl]
      constructor
      · intro h'; exact .absent h he h'
      · intro h'
        cases h' with
        | own h1 h2 => rw [h] at h1; cases h1
        | noneOwn h1 h2 => rw [h] at h1; cases h1
        | absent h1 _ h2 => rw [h] at h1; cases h1; exact h2
        | fails h1 h2 => rw [h] at h1; cases h1; rw [he] at h2; cases h2
        | hangs h1 => rw [h] at h1; cases h1
    · simp only [he, Bool.false_eq_true, if_false] at ht
      rw [bind_err ht]
      constructor
      · rintro rfl; exact .fails h (by simpa using he)
      · intro h'
        cases h' with
        | own h1 h2 => rw [h] at h1; cases h1
        | noneOwn h1 h2 => rw [h] at h1; cases h1
        | absent h1 h2 => rw [h] at h1; cases h1; exact absurd h2 he
        | fails h1 h2 => rw [h] at h1; cases h1; rfl
        | hangs h1 => rw [h] at h1; cases h1
  | diverge =>
    rw [bind_diverge ht]
    constructor
    · rintro rfl; exact .hangs h
    · intro h'
      cases h' with
      | own h1 h2 => rw [h] at h1; cases h1
      | noneOwn h1 h2 => rw [h] at h1; cases h1
      | absent h1 => rw [h] at h1; cases h1
      | fails h1 => rw [h] at h1; cases h1
      | hangs h1 => rw [h] at h1; cases h1; rfl

theorem dicts_iff (c : Val) (g st : Nat) : Dicts c g st ↔ checkerDicts c = some (g, st) := by
  constructor
  · intro h; cases h <;> rfl
  · intro h
    cases c with
    | checker => simp only [checkerDicts, Option.some.injEq, Prod.mk.injEq] at h; obtain ⟨rfl, rfl⟩ := h; exact .plain
    | combined => simp only [checkerDicts, Option.some.injEq, Prod.mk.injEq] at h; obtain ⟨rfl, rfl⟩ := h; exact .combined
    | _ => cases h

theorem newCombined_run {c1 : Val} {g st : Nat} (h : checkerDicts c1 = some (g, st)) (c2 : Val) (s : St A) :
    newCombined c1 c2 s = (.ok (.combined s.nextId g st c2), { s with nextId := s.nextId + 1 }) := by
  unfold newCombined
  rw [h]
  rfl

theorem decoCombine_iff (X : Ctx A) (d : Val) (ri : Res Val × St A) (r : Res Val × St A) :
    (match ri with
      | (.ok c, s1) => decoCombine X d c s1
      | (.err e, s1) => (.err e, s1)
      | (.diverge, s1) => (.diverge, s1)) = r ↔ DecoSpec (selectChecker X d) ri r := by
  rcases ri with ⟨ri, s1⟩
  cases ri with
  | err e => exact ⟨by rintro rfl; exact .innerFails, by intro h; cases h; rfl⟩
  | diverge => exact ⟨by rintro rfl; exact .innerHangs, by intro h; cases h; rfl⟩
  | ok c =>
    simp only
    unfold decoCombine
    rcases h : selectChecker X d s1 with ⟨r1, s2⟩
    cases r1 with
    | err e =>
      rw [bind_err h]
      exact ⟨by rintro rfl; exact .outerFails h, by
        intro h'; cases h' <;> simp_all⟩
    | diverge =>
      rw [bind_diverge h]
      exact ⟨by rintro rfl; exact .outerHangs h, by
        intro h'; cases h' <;> simp_all⟩
    | ok co =>
      rw [bind_ok h]
      by_cases hco : co = .none
      · subst hco
        by_cases hc : c = .none
        · subst hc
          rw [if_pos ⟨rfl, rfl⟩]
          exact ⟨by rintro rfl; exact .neither h, by intro h'; cases h' <;> simp_all⟩
        · rw [if_neg (fun h => hc h.2), if_pos rfl]
          refine ⟨by rintro rfl; exact .innerOnly hc h, ?_⟩
          intro h'
          cases h' with
          | both _ h1 h2 => rw [h] at h1; cases h1; cases h2
          | innerOnly _ h1 => rw [h] at h1; cases h1; rfl
          | outerFails h1 => rw [h] at h1; cases h1
          | outerHangs h1 => rw [h] at h1; cases h1
          | _ => exact absurd rfl hc
      · have hch := (selectChecker_result X d s1 co s2 h).resolve_left hco
        have hd : ∃ g st, checkerDicts co = some (g, st) := by
          cases co <;> first | exact ⟨_, _, rfl⟩ | cases hch
        obtain ⟨g, st, hd⟩ := hd
        by_cases hc : c = .none
        · subst hc
          rw [if_neg (fun h => hco h.1), if_neg hco, if_pos rfl]
          refine ⟨by rintro rfl; exact .outerOnly h hco, ?_⟩
          intro h'
          cases h' with
          | both h0 => exact absurd rfl h0
          | innerOnly h0 => exact absurd rfl h0
          | outerOnly h1 => rw [h] at h1; cases h1; rfl
          | neither h1 => rw [h] at h1; cases h1; exact absurd rfl hco
          | outerFails h1 => rw [h] at h1; cases h1
          | outerHangs h1 => rw [h] at h1; cases h1
        · rw [if_neg (fun h => hco h.1), if_neg hco, if_neg hc, newCombined_run hd]
          refine ⟨by rintro rfl; exact .both hc h ((dicts_iff _ _ _).mpr hd), ?_⟩
          intro h'
          cases h' with
          | both _ h1 h2 =>
            rw [h] at h1; cases h1
            rw [dicts_iff, hd] at h2; cases h2; rfl
          | innerOnly _ h1 => rw [h] at h1; cases h1; exact absurd rfl hco
          | outerFails h1 => rw [h] at h1; cases h1
          | outerHangs h1 => rw [h] at h1; cases h1
          | _ => exact absurd rfl hc

theorem getSC_deco (X : Ctx A) (id : Nat) (cls : String) (v : Val) (hv : ¬ IsProxy v) :
    getSC X (.deco id cls v) = innerPlain X v >>= decoCombine X (.deco id cls v) := by
  cases v with
  | proxy => exact absurd ⟨_, _, _, rfl⟩ hv
  | _ => rfl

/-- **C44** The checker of a decorator around a security-proxied object: the proxy's checker combined with
the one of the decorator's type. -/
theorem C44_around_proxy (X : Ctx A) (id : Nat) (cls : String) (pid : Nat) (w c0 : Val) (s : St A) (w' c : Val)
    (hp : current X.impl s (.proxy pid w c0) = some (w', c)) (r : Res Val × St A) :
    getSC X (.deco id cls (.proxy pid w c0)) s = r
      ↔ DecoSpec (selectChecker X (.deco id cls (.proxy pid w c0))) (.ok c, s) r := by
  rw [← decoCombine_iff]
  have : proxyChecker X s pid c0 = c := by
    unfold proxyChecker
    unfold current at hp
    cases hX : X.impl <;> rw [hX] at hp <;> simp_all
  rw [← this]
  rfl

/-- **C44** The checker of a decorator around any other object: that object's own checker (its
`__Security_checker__` or the one of its type) combined with the one of the decorator's type. -/
theorem C44_around_plain (X : Ctx A) (id : Nat) (cls : String) (v : Val) (hv : ¬ IsProxy v) (s : St A) (r : Res Val × St A) :
    getSC X (.deco id cls v) s = r
      ↔ ∃ ri, PlainInner (getSC X v) (selectChecker X v) s ri ∧ DecoSpec (selectChecker X (.deco id cls v)) ri r := by
  rw [getSC_deco X id cls v hv, run_bind]
  constructor
  · intro h
    refine ⟨innerPlain X v s, (innerPlain_iff X v s _).mp rfl, (decoCombine_iff X _ _ r).mp ?_⟩
    rcases hi : innerPlain X v s with ⟨ri, s1⟩
    rw [hi] at h
    cases ri <;> exact h
  · rintro ⟨ri, h1, h2⟩
    rw [← innerPlain_iff] at h1
    subst h1
    have h := (decoCombine_iff X _ _ r).mpr h2
    rcases hi : innerPlain X v s with ⟨ri, s1⟩
    rw [hi] at h
    cases ri <;> exact h

/-- What refuses or grants decisively makes a chain grant exactly if one of its links grants. -/
theorem chain_decisive (X : Ctx A) (H : Val → Name → M A Bool) (k : CheckKind) (o : Val) (n : Name) (c : Val) (s : St A)
    (hd : Decisive (links X H k (if k = .setattr then .setattr else .check) o n c) s) :
    (chkCheck X H k c o n s).1 = .ok ()
      ↔ ∃ f ∈ links X H k (if k = .setattr then .setattr else .check) o n c, f s = (.ok (), s) := by
  have h := C05_chain X H k o n c s _ rfl
  generalize links X H k (if k = .setattr then .setattr else .check) o n c = L at hd h ⊢
  generalize chkCheck X H k c o n s = r at h ⊢
  revert h
  have hst : ∀ pre es s1, (∀ f ∈ pre, f ∈ L) → Refusals pre s es s1 → s1 = s ∧ ∀ f ∈ pre, f s ≠ (.ok (), s) := by
    intro pre es s1 hsub hr
    induction hr with
    | nil => exact ⟨rfl, by simp⟩
    | @cons f fs s e es s1 s2 h1 h2 h3 ih =>
      have : s1 = s := by
        rcases hd f (hsub f (by simp)) with h | ⟨e', h, _⟩ <;> rw [h1] at h <;> cases h
        rfl
      subst this
      obtain ⟨i1, i2⟩ := ih hd (fun f hf => hsub f (by simp [hf]))
      refine ⟨i1, fun f' hf' => ?_⟩
      rcases List.mem_cons.mp hf' with rfl | hf'
      · rw [h1]; intro h; cases h
      · exact i2 f' hf'
  intro h
  cases h with
  | @granted pre f post es s1 s2 h1 h2 h3 =>
    subst h1
    obtain ⟨rfl, _⟩ := hst pre es s1 (by intro f hf; simp [hf]) h2
    simp only [true_iff]
    refine ⟨f, by simp, ?_⟩
    rcases hd f (by simp) with h | ⟨e', h, _⟩
    · exact h
    · rw [h] at h3; cases h3
  | @refused es s1 e h1 h2 =>
    obtain ⟨rfl, hno⟩ := hst L es s1 (fun _ h => h) h1
    simp only [reduceCtorEq, false_iff, not_exists, not_and]
    exact hno
  | @failed pre f post es s1 e s2 h1 h2 h3 h4 =>
    subst h1
    obtain ⟨rfl, _⟩ := hst pre es s1 (by intro f hf; simp [hf]) h2
    rcases hd f (by simp) with h | ⟨e', h, h'⟩
    · rw [h] at h3; cases h3
    · rw [h] at h3; cases h3; exact absurd h' h4
  | @hung pre f post es s1 s2 h1 h2 h3 =>
    subst h1
    obtain ⟨rfl, _⟩ := hst pre es s1 (by intro f hf; simp [hf]) h2
    rcases hd f (by simp) with h | ⟨e', h, h'⟩ <;> rw [h] at h3 <;> cases h3

/-- The checks of what the checkers of the decorators' types themselves require. -/
def ownChecks (X : Ctx A) (H : Val → Name → M A Bool) (k : CheckKind) (entry : String → Val) (o : Val) (n : Name)
    (ds : List (Nat × String)) : List (St A → Res Unit × St A) :=
  ds.map fun d => chkCheck X H k (ownHalf (entry d.2)) o n

/-- **C44** Decoration of any depth.  For an object `v` with a checker `ci` (its security proxy's, its own or
its type's) inside decorators whose types have checkers, the checker of the whole asks what the types'
checkers themselves require, from the outside inwards, and then `ci`. -/
theorem C44_nested (X : Ctx A) (hf : X.impl = .c → ∀ i cls v, X.W.isExc (.deco i cls v) = false) (ds : List (Nat × String)) (hds : ds ≠ []) (v ci : Val) (hci : ci ≠ .none) (s s1 : St A)
    (hv : (∃ w', current X.impl s v = some (w', ci) ∧ s1 = s)
      ∨ ¬ IsProxy v ∧ PlainInner (getSC X v) (selectChecker X v) s (.ok ci, s1))
    (entry : String → Val) (hreg : ∀ d ∈ ds, Entry s1.reg d.2 (entry d.2) ∧ ∃ g st, Dicts (entry d.2) g st) :
    ∃ c m, getSC X (decorated ds v) s = (.ok c, { s1 with nextId := m }) ∧ c ≠ .none
      ∧ ∀ H k o n, links X H k (if k = .setattr then .setattr else .check) o n c
          = ownChecks X H k entry o n ds
            ++ links X H (if k = .setattr then .setattr else .check) (if k = .setattr then .setattr else .check) o n ci := by
  induction ds with
  | nil => exact absurd rfl hds
  | cons d ds ih =>
    obtain ⟨id, cls⟩ := d
    obtain ⟨he, g, st, hdict⟩ := hreg (id, cls) (by simp)
    simp only at he hdict
    have hchk : (entry cls).isChecker = true := by cases hd : entry cls <;> rw [hd] at hdict <;> cases hdict <;> rfl
    have hhalf : ∃ i, ownHalf (entry cls) = .checker i g st := by
      cases hd : entry cls <;> rw [hd] at hdict <;> cases hdict <;> exact ⟨_, rfl⟩
    obtain ⟨i, hentry⟩ := hhalf
    have hnn : entry cls ≠ .none := by intro h; rw [h] at hchk; cases hchk
    have hsel : ∀ inner m, selectChecker X (.deco id cls inner) { s1 with nextId := m }
        = (.ok (entry cls), { s1 with nextId := m }) := by
      intro inner m
      rw [selectChecker_eq]
      have hr : regEntry X.W { s1 with nextId := m } (.deco id cls inner) = entry cls := by
        rw [← entry_iff]
        exact he
      rw [hr, if_neg (by intro h; rw [h] at hchk; cases hchk), if_neg (fun h => by rw [hf h.1] at h; exact absurd h.2.2 (by simp)),
        selectLoop_checker _ _ _ _ _ hchk]
    have hlinks : ∀ (c2 : Val) (id' : Nat) (L : List (St A → Res Unit × St A)) H k o n,
        links X H (if k = CheckKind.setattr then .setattr else .check) (if k = .setattr then .setattr else .check) o n c2 = L →
        links X H k (if k = .setattr then .setattr else .check) o n (.combined id' g st c2)
          = chkCheck X H k (ownHalf (entry cls)) o n :: L := by
      intro c2 id' L H k o n h
      simp only [links, h, hentry]
      rfl
    have hkk : ∀ H k o n, ∀ d ∈ ds, chkCheck X H (if k = CheckKind.setattr then .setattr else .check) (ownHalf (entry d.2)) o n
        = chkCheck X H k (ownHalf (entry d.2)) o n := by
      intro H k o n d hd
      obtain ⟨_, g, st, h⟩ := hreg d (by simp [hd])
      cases hd : entry d.2 <;> rw [hd] at h <;> cases h <;> cases k <;> rfl
    by_cases hds' : ds = []
    · subst hds'
      refine ⟨.combined s1.nextId g st ci, s1.nextId + 1, ?_, by simp, fun H k o n => hlinks _ _ _ _ _ _ _ rfl⟩
      have hD : DecoSpec (selectChecker X (.deco id cls v)) (.ok ci, s1)
          (.ok (.combined s1.nextId g st ci), { s1 with nextId := s1.nextId + 1 }) :=
        .both hci (hsel v s1.nextId) (hdict)
      rcases hv with ⟨w', hcur, rfl⟩ | ⟨hnp, hin⟩
      · cases v with
        | proxy pid w c0 => exact (C44_around_proxy X id cls pid w c0 s1 w' ci hcur _).mpr hD
        | _ => simp [current] at hcur
      · exact (C44_around_plain X id cls v hnp s _).mpr ⟨_, hin, hD⟩
    · obtain ⟨c, m, h1, h2, h3⟩ := ih hds' (fun d hd => hreg d (by simp [hd]))
      refine ⟨.combined m g st c, m + 1, ?_, by simp, fun H k o n => ?_⟩
      · have hnp : ¬ IsProxy (decorated ds v) := by
          cases ds with
          | nil => exact absurd rfl hds'
          | cons d _ => rintro ⟨_, _, _, h⟩; cases h
        refine (C44_around_plain X id cls _ hnp s _).mpr ⟨_, .own h1 h2, ?_⟩
        exact DecoSpec.both h2 (hsel _ m) (hdict)
      · refine hlinks c m _ H k o n ?_
        have := h3 H (if k = CheckKind.setattr then .setattr else .check) o n
        have e : (if (if k = CheckKind.setattr then CheckKind.setattr else .check) = .setattr then CheckKind.setattr else .check)
            = (if k = .setattr then .setattr else .check) := by cases k <;> rfl
        rw [e] at this
        rw [this]
        congr 1
        exact List.map_congr_left (hkk H k o n)

/-- How the later links of a chain are asked. -/
def later (k : CheckKind) : CheckKind := if k = .setattr then .setattr else .check

/-- **C44** Hence a name is granted by the checker of an object inside any number of decorators exactly if
what the type of one of the decorators itself requires is met or the checker of the object grants it, whenever the single
checks either grant or refuse and have no effects (which all checks under the built-in policies do that
find an interaction, except for `__iter__`). -/
theorem C44_granted (X : Ctx A) (hf : X.impl = .c → ∀ i cls v, X.W.isExc (.deco i cls v) = false) (ds : List (Nat × String)) (hds : ds ≠ []) (v ci : Val) (hci : ci ≠ .none) (s s1 : St A)
    (hv : (∃ w', current X.impl s v = some (w', ci) ∧ s1 = s)
      ∨ ¬ IsProxy v ∧ PlainInner (getSC X v) (selectChecker X v) s (.ok ci, s1))
    (entry : String → Val) (hreg : ∀ d ∈ ds, Entry s1.reg d.2 (entry d.2) ∧ ∃ g st, Dicts (entry d.2) g st)
    (H : Val → Name → M A Bool) (k : CheckKind) (o : Val) (n : Name) (t : St A)
    (hd1 : Decisive (ownChecks X H k entry o n ds) t) (hd2 : Decisive (links X H (later k) (later k) o n ci) t) :
    ∃ c m, getSC X (decorated ds v) s = (.ok c, { s1 with nextId := m })
      ∧ ((chkCheck X H k c o n t).1 = .ok () ↔
          (∃ d ∈ ds, (chkCheck X H k (ownHalf (entry d.2)) o n t).1 = .ok ()) ∨ (chkCheck X H (later k) ci o n t).1 = .ok ()) := by
  obtain ⟨c, m, h1, h2, h3⟩ := C44_nested X hf ds hds v ci hci s s1 hv entry hreg
  refine ⟨c, m, h1, ?_⟩
  have hkk : (if later k = CheckKind.setattr then CheckKind.setattr else .check) = later k := by cases k <;> rfl
  have h3' := h3 H k o n
  have hc := chain_decisive X H k o n c t (by
    rw [h3']
    intro f hf
    rcases List.mem_append.mp hf with h | h
    · exact hd1 f h
    · exact hd2 f h)
  have hi := chain_decisive X H (later k) o n ci t (by rw [hkk]; exact hd2)
  rw [hkk] at hi
  rw [hc, hi, h3']
  constructor
  · rintro ⟨f, hf, hfs⟩
    rcases List.mem_append.mp hf with h | h
    · obtain ⟨d, hd, rfl⟩ := List.mem_map.mp h
      exact .inl ⟨d, hd, by rw [hfs]⟩
    · exact .inr ⟨f, h, hfs⟩
  · rintro (⟨d, hd, h⟩ | ⟨f, hf, hfs⟩)
    · have hm : (chkCheck X H k (ownHalf (entry d.2)) o n : St A → Res Unit × St A) ∈ ownChecks X H k entry o n ds :=
        List.mem_map.mpr ⟨d, hd, rfl⟩
      refine ⟨_, List.mem_append_left _ hm, ?_⟩
      rcases hd1 _ hm with h' | ⟨e, h', _⟩
      · exact h'
      · rw [h'] at h; cases h
    · exact ⟨f, List.mem_append_right _ hf, hfs⟩

/-- Two decorators around a proxied object: the outer type declares `x`, the inner one `y`, the
proxy's checker `a`; each of the three is granted, anything else forbidden. -/
def sDeco : St Unit :=
  { Ex.s1 none with
    reg := [(.ty "Outer", .checker 40 41 42), (.ty "Inner", .checker 43 44 45)]
    dicts := fun k => if k = 41 then [("x", publicV)] else if k = 44 then [("y", publicV)] else (Ex.s1 none).dicts k }

example : ∀ impl, getSC (Ex.X impl) (decorated [(80, "Outer"), (81, "Inner")] (.proxy 70 (.obj 1) Ex.c1)) sDeco
    = (.ok (.combined 101 41 42 (.combined 100 44 45 Ex.c1)), { sDeco with nextId := 102 }) := by
  intro impl; cases impl <;> rfl

example : ∀ impl n, n ∈ ["x", "y", "a"] →
    chkCheck (Ex.X impl) (hasattrX (Ex.X impl)) .getattr (.combined 101 41 42 (.combined 100 44 45 Ex.c1)) (.obj 1) n sDeco
      = (.ok (), sDeco) := by
  intro impl n hn
  simp only [List.mem_cons, List.not_mem_nil, or_false] at hn
  rcases hn with rfl | rfl | rfl <;> cases impl <;> rfl

example : ∀ impl, (chkCheck (Ex.X impl) (hasattrX (Ex.X impl)) .getattr (.combined 101 41 42 (.combined 100 44 45 Ex.c1)) (.obj 1) "z" sDeco).1
      = .err (.forbidden "z" (.obj 1)) := by
  intro impl; cases impl <;> rfl

/-- The hypotheses of `C44_granted` for the name `y`. -/
example : ∀ impl, Decisive (ownChecks (Ex.X impl) (hasattrX (Ex.X impl)) .getattr
      (fun c => if c = "Outer" then .checker 40 41 42 else .checker 43 44 45) (.obj 1) "y" [(80, "Outer"), (81, "Inner")]) sDeco
    ∧ Decisive (links (Ex.X impl) (hasattrX (Ex.X impl)) .check .check (.obj 1) "y" Ex.c1) sDeco := by
  intro impl
  constructor
  · intro f hf
    rcases List.mem_cons.mp hf with rfl | hf
    · exact .inr ⟨.forbidden "y" (.obj 1), by cases impl <;> rfl, .inl ⟨_, _, rfl⟩⟩
    · rcases List.mem_cons.mp hf with rfl | hf
      · exact .inl (by cases impl <;> rfl)
      · cases hf
  · intro f hf
    have hf : f = chkCheck (Ex.X impl) (hasattrX (Ex.X impl)) .check Ex.c1 (.obj 1) "y" := List.mem_singleton.mp hf
    subst hf
    exact .inr ⟨.forbidden "y" (.obj 1), by cases impl <;> rfl, .inl ⟨_, _, rfl⟩⟩

/-- **C44** If the decorator's type has a `CombinedChecker`, its second half is lost in the combination:
a name only that half grants is forbidden, although the type's own checker grants it. -/
theorem C44_combined_type_loses :
    let s : St Unit := { sDeco with reg := [(.ty "Outer", .combined 40 41 42 (.checker 43 44 45))] }
    ∀ impl, (chkCheck (Ex.X impl) (hasattrX (Ex.X impl)) .getattr (.combined 40 41 42 (.checker 43 44 45)) (.obj 1) "y" s).1 = .ok ()
      ∧ getSC (Ex.X impl) (.deco 80 "Outer" (.proxy 70 (.obj 1) Ex.c1)) s
          = (.ok (.combined 100 41 42 Ex.c1), { s with nextId := 101 })
      ∧ (chkCheck (Ex.X impl) (hasattrX (Ex.X impl)) .getattr (.combined 100 41 42 Ex.c1) (.obj 1) "y" s).1
          = .err (.forbidden "y" (.obj 1)) := by
  intro s impl
  cases impl <;> exact ⟨rfl, rfl, rfl⟩

end ZS.Props
