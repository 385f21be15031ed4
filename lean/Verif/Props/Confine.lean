import Verif.Props.Ops
import Verif.Props.Select
import Verif.Spec.Confine

/-!
# C11, C12 Confinement
-/

namespace ZS.Props
open Spec
variable {A : Type}

theorem slots_keeps {X : Ctx A} (h : OwnCheckers X) : Keeps (SlotsOK X.impl) X.W :=
  ⟨fun r s hs => h.slots r s hs, fun _ _ h => h, fun _ h => h⟩

theorem probe_ok {X : Ctx A} {r : RawOp} {s s' : St A} {v : Val} (h : probe X r s = (.ok v, s')) :
    ∃ s1, X.W.apply r { s with trace := s.trace ++ [.probed r] } = (.ok v, s1) := by
  rcases hr : X.W.apply r { s with trace := s.trace ++ [.probed r] } with ⟨x, s1⟩
  have : (x, ({ s1 with trace := s.trace ++ [.probed r] } : St A)) = (.ok v, s') := by
    rw [← h]; unfold probe; simp only [hr]
  cases this
  exact ⟨s1, rfl⟩

theorem perform_ok {X : Ctx A} {r : RawOp} {s s' : St A} {v : Val} (h : perform X r s = (.ok v, s')) :
    ∃ s1, X.W.apply r { s with trace := s.trace ++ [.performed r] } = (.ok v, s1) := by
  rcases hr : X.W.apply r { s with trace := s.trace ++ [.performed r] } with ⟨x, s1⟩
  have : (x, ({ s1 with trace := s.trace ++ [.performed r] } : St A)) = (.ok v, s') := by
    rw [← h]; unfold perform; simp only [hr]
  cases this
  exact ⟨s1, rfl⟩

theorem perform_guarded {X : Ctx A} (h : OwnCheckers X) {r : RawOp} {s s' : St A} {v : Val} (hp : perform X r s = (.ok v, s')) :
    Guarded v := by
  obtain ⟨s1, h1⟩ := perform_ok hp
  exact h.results _ _ _ _ h1

theorem proxyChecker_ok {X : Ctx A} {s : St A} {i : Nat} {c : Val} (hs : SlotsOK X.impl s) (hc : IsChecker c) :
    IsChecker (proxyChecker X s i c) := by
  unfold proxyChecker
  cases hi : X.impl with
  | c => exact hc
  | py =>
    simp only
    cases ho : s.ovC i with
    | none => exact hc
    | some k => exact hs hi i k ho

theorem decoCombine_result {X : Ctx A} {d c : Val} {s s' : St A} {k : Val} (hc : c = .none ∨ IsChecker c)
    (h : decoCombine X d c s = (.ok k, s')) : k = .none ∨ IsChecker k := by
  unfold decoCombine at h
  obtain ⟨w, s1, h1, h2⟩ := bind_eq_ok h
  have hw := C07_none_or_checker X d s w s1 h1
  by_cases hb : w = .none ∧ c = .none
  · rw [if_pos hb] at h2; cases h2
  · rw [if_neg hb] at h2
    by_cases hn : w = .none
    · rw [if_pos hn] at h2; cases h2; exact hc
    · rw [if_neg hn] at h2
      by_cases hcn : c = .none
      · rw [if_pos hcn] at h2; cases h2; exact hw
      · rw [if_neg hcn] at h2
        unfold newCombined at h2
        cases hd : checkerDicts w with
        | none => rw [hd] at h2; cases h2
        | some g => rw [hd] at h2; cases h2; exact .inr (.inr ⟨_, _, _, _, rfl⟩)

/-- What the attribute `__Security_checker__` can be. -/
theorem getSC_result {X : Ctx A} (hX : OwnCheckers X) (v : Val) (hv : Guarded v) (s s' : St A) (k : Val)
    (hs : SlotsOK X.impl s) (h : getSC X v s = (.ok k, s')) : k = .none ∨ IsChecker k := by
  induction v generalizing s s' k with
  | deco id cls inner ih =>
    unfold getSC at h
    obtain ⟨c, s1, h1, h2⟩ := bind_eq_ok h
    refine decoCombine_result ?_ h2
    by_cases hp : IsProxy inner
    · obtain ⟨_, _, _, rfl⟩ := hp
      cases h1; exact .inr (proxyChecker_ok hs hv)
    · replace h1 : (do let c ← orNone (getSC X inner); if c = .none then selectChecker X inner else pure c : M A Val) s
          = (.ok c, s1) := by
        cases inner with
        | proxy _ _ _ => exact absurd ⟨_, _, _, rfl⟩ hp
        | _ => exact h1
      obtain ⟨c1, s2, h3, h4⟩ := bind_eq_ok h1
      by_cases hc1 : c1 = .none
      · rw [if_pos hc1] at h4; exact C07_none_or_checker _ _ _ _ _ h4
      · rw [if_neg hc1] at h4; cases h4
        unfold orNone at h3
        rw [run_tryCatch] at h3
        rcases hg : getSC X inner s with ⟨r, s3⟩
        rw [hg] at h3
        cases r with
        | ok a => cases h3; exact ih hv s _ _ hs hg
        | err e =>
          simp only at h3
          split at h3
          · cases h3; exact absurd rfl hc1
          · cases h3
        | diverge => cases h3
  | obj o => obtain ⟨s1, h1⟩ := probe_ok h; exact hX.own _ _ _ _ h1
  | type o => obtain ⟨s1, h1⟩ := probe_ok h; exact hX.own _ _ _ _ h1
  | module o => obtain ⟨s1, h1⟩ := probe_ok h; exact hX.own _ _ _ _ h1
  | fn o => obtain ⟨s1, h1⟩ := probe_ok h; exact hX.own _ _ _ _ h1
  | _ => cases h

/-- What a checker's `proxy` returns may be given to untrusted code. -/
theorem chkProxy_safe {X : Ctx A} (hX : OwnCheckers X) {c v : Val} (hc : IsChecker c) (hv : Guarded v) {s s' : St A} {r : Val}
    (hs : SlotsOK X.impl s) (h : chkProxy X c v s = (.ok r, s')) : Safe X r s' := by
  rcases C06_result X c v hc s r s' h with ⟨rfl, h1⟩ | ⟨id, k, s1, rfl, _, hk, _, _, h1⟩
  · by_cases hp : IsProxy r
    · obtain ⟨i, w, c, rfl⟩ := hp
      exact .inl ⟨_, _, _, rfl, hv⟩
    · obtain ⟨s1, h1⟩ := h1.resolve_left hp
      exact .inr ⟨hp, .inr (.inr (.inr ⟨s1, C07_select_sound X r s1 _ _ h1 (by simp)⟩))⟩
  · refine .inl ⟨_, _, _, rfl, ?_⟩
    rcases h1 with h1 | ⟨s2, h1⟩
    · exact (getSC_result hX v hv _ _ _ hs h1).resolve_left hk
    · exact (C07_none_or_checker _ _ _ _ _ h1).resolve_left hk

theorem safe_basic {X : Ctx A} {v : Val} {t : St A} (h : Basic v) : Safe X v t := by
  refine .inr ⟨?_, .inl h⟩
  rintro ⟨i, w, c, rfl⟩
  rcases h with h | h | ⟨_, h⟩ | ⟨_, h⟩ | ⟨_, _, h⟩ <;> cases h

theorem asLen_ok {v r : Val} {s s' : St A} (h : asLen v s = (.ok r, s')) : Basic r := by
  cases v with
  | int n =>
    by_cases hn : 0 ≤ n
    · rw [show (asLen (.int n) : M A Val) = pure (.int n) from if_pos hn] at h
      cases h; exact .inr (.inr (.inr (.inl ⟨_, rfl⟩)))
    · rw [show (asLen (.int n) : M A Val) = M.throw .valueError from if_neg hn] at h; cases h
  | _ => cases h

theorem asInt_ok {v r : Val} {s s' : St A} (h : asInt v s = (.ok r, s')) : Basic r := by
  cases v with
  | int n => cases h; exact .inr (.inr (.inr (.inl ⟨_, rfl⟩)))
  | _ => cases h

/-- If the value is a proxy, its checker is one of the package's. -/
def ArgOK (v : Val) : Prop := ∀ i w c, v = .proxy i w c → IsChecker c

theorem Guarded.argOK {v : Val} (h : Guarded v) : ArgOK v := by
  rintro i w c rfl; exact h

theorem asStr_safe {X : Ctx A} {v r : Val} {s s' : St A} (hv : ArgOK v) (h : asStr X.W v s = (.ok r, s')) (t : St A) :
    Safe X r t := by
  by_cases hb : ∃ a x, v = .str a x
  · obtain ⟨a, x, rfl⟩ := hb
    cases h; exact safe_basic (.inr (.inr (.inr (.inr ⟨_, _, rfl⟩))))
  · have h' : (if X.W.strSub v then pure v else M.throw .typeError : M A Val) s = (.ok r, s') := by
      cases v with
      | str a x => exact absurd ⟨_, _, rfl⟩ hb
      | _ => exact h
    by_cases hs : X.W.strSub v = true
    · rw [if_pos hs] at h'; cases h'
      by_cases hp : IsProxy v
      · obtain ⟨i, w, c, rfl⟩ := hp; exact .inl ⟨_, _, _, rfl, hv _ _ _ rfl⟩
      · exact .inr ⟨hp, .inr (.inl hs)⟩
    · rw [if_neg hs] at h'; cases h'

/-- The result may be given away, whenever the state was in order at the beginning. -/
def GivesSafe (X : Ctx A) (x : M A Val) : Prop :=
  ∀ s, SlotsOK X.impl s → ∀ v s', x s = (.ok v, s') → Safe X v s'

theorem GivesSafe.bind {X : Ctx A} {α : Type} {x : M A α} {f : α → M A Val} (hx : Pres (SlotsOK X.impl) x)
    (hf : ∀ a, GivesSafe X (f a)) : GivesSafe X (x >>= f) := by
  intro s hs v s' h
  obtain ⟨a, s1, h1, h2⟩ := bind_eq_ok h
  have := hx s hs
  rw [h1] at this
  exact hf a s1 this v s' h2

/-- An operation carried out on the object, whose result is then dealt with. -/
theorem GivesSafe.perform {X : Ctx A} (hX : OwnCheckers X) {r : RawOp} {f : Val → M A Val}
    (hf : ∀ v, Guarded v → GivesSafe X (f v)) : GivesSafe X (ZS.perform X r >>= f) := by
  intro s hs v s' h
  obtain ⟨a, s1, h1, h2⟩ := bind_eq_ok h
  have := Pres.perform (slots_keeps hX) r s hs
  rw [h1] at this
  exact hf a (perform_guarded hX h1) s1 this v s' h2

theorem GivesSafe.state {X : Ctx A} {f : St A → M A Val} (hf : ∀ s, SlotsOK X.impl s → GivesSafe X (f s)) :
    GivesSafe X (M.get >>= f) := fun s hs v s' h => hf s hs s hs v s' h

theorem GivesSafe.proxy {X : Ctx A} (hX : OwnCheckers X) {c v : Val} (hc : IsChecker c) (hv : Guarded v) :
    GivesSafe X (chkProxy X c v) := fun _ hs _ _ h => chkProxy_safe hX hc hv hs h

theorem GivesSafe.basic {X : Ctx A} {x : M A Val} (h : ∀ s v s', x s = (.ok v, s') → Basic v) : GivesSafe X x :=
  fun s _ v s' hx => safe_basic (h s v s' hx)

theorem GivesSafe.throw {X : Ctx A} (e : Exn) : GivesSafe X (M.throw e) := fun _ _ _ _ h => by cases h

theorem GivesSafe.pureBasic {X : Ctx A} {v : Val} (h : Basic v) : GivesSafe X (pure v) := by
  intro s _ r s' hx; cases hx; exact safe_basic h

theorem GivesSafe.tryCatch {X : Ctx A} {x : M A Val} {p : Exn → Bool} {g : Exn → M A Val} (hp : Pres (SlotsOK X.impl) x)
    (hx : GivesSafe X x) (hg : ∀ e, GivesSafe X (g e)) : GivesSafe X (M.tryCatch x p g) := by
  intro s hs v s' h
  rw [run_tryCatch] at h
  have hp' := hp s hs
  rcases hxs : x s with ⟨r, s1⟩
  rw [hxs] at h hp'
  cases r with
  | ok a => cases h; exact hx s hs _ _ hxs
  | err e =>
    simp only at h
    split at h
    · exact hg e s1 hp' v s' h
    · cases h
  | diverge => cases h

theorem basic_none : Basic .none := .inl rfl
theorem basic_notImpl : Basic .notImpl := .inr (.inl rfl)
theorem basic_bool (b : Bool) : Basic (.bool b) := .inr (.inr (.inl ⟨_, rfl⟩))
theorem basic_str (a : Nat) (t : String) : Basic (.str a t) := .inr (.inr (.inr (.inr ⟨_, _, rfl⟩)))

theorem safe_argOK {X : Ctx A} {v : Val} {t : St A} (h : Safe X v t) : ArgOK v := by
  rintro i w c rfl
  rcases h with ⟨_, _, _, h, hc⟩ | ⟨h, _⟩
  · cases h; exact hc
  · exact absurd ⟨_, _, _, rfl⟩ h

theorem check1C_safe {X : Ctx A} (hX : OwnCheckers X) {k : CheckKind} {w c : Val} {n : Name} {r : RawOp} (hc : IsChecker c) :
    GivesSafe X (check1C X k w c n r) :=
  .bind (.guard (slots_keeps hX) _ _ _ _) fun _ => .perform hX fun _ hv => .proxy hX hc hv

theorem check2C_safe {X : Ctx A} (hX : OwnCheckers X) (b : BinName) {l r : Val} (hl : ArgOK l) (hr : ArgOK r) :
    GivesSafe X (check2C X b l r) := by
  unfold check2C
  split
  · exact check1C_safe hX (hl _ _ _ rfl)
  · exact check1C_safe hX (hr _ _ _ rfl)
  · exact .pureBasic basic_notImpl

theorem powC_safe {X : Ctx A} (hX : OwnCheckers X) {x y m : Val} (hx : ArgOK x) (hy : ArgOK y) (hm : ArgOK m) :
    GivesSafe X (powC X x y m) := by
  unfold powC
  split
  · exact check1C_safe hX (hx _ _ _ rfl)
  · exact check1C_safe hX (hy _ _ _ rfl)
  · exact check1C_safe hX (hm _ _ _ rfl)
  · exact .pureBasic basic_notImpl

theorem perform_lengthHint {X : Ctx A} (hX : OwnCheckers X) {r : RawOp}
    (hr : (∃ w, r = .method w "__length_hint__" []) ∨
      ∃ h w s1 s2, r = .call h [] ∧ X.W.apply (.getattr w "__length_hint__") s1 = (.ok h, s2)) :
    GivesSafe X (perform X r) := by
  intro s _ v s' h
  have hg := perform_guarded hX h
  by_cases hp : IsProxy v
  · obtain ⟨i, w, c, rfl⟩ := hp
    exact .inl ⟨_, _, _, rfl, hg⟩
  · refine .inr ⟨hp, .inr (.inr (.inl ?_))⟩
    rcases ha : X.W.apply r { s with trace := s.trace ++ [.performed r] } with ⟨x, s1⟩
    have : (x, ({ s1 with trace := s.trace ++ [.performed r] } : St A)) = (.ok v, s') := by
      rw [← h]; unfold perform; simp only [ha]
    cases this
    exact ⟨r, _, _, ha, rfl, by simp, hr⟩

theorem defaultReprC_basic {X : Ctx A} {w : Val} {s s' : St A} {v : Val} (h : defaultReprC X w s = (.ok v, s')) : Basic v := by
  unfold defaultReprC at h
  obtain ⟨_, _, _, h⟩ := bind_eq_ok h
  obtain ⟨_, _, _, h⟩ := bind_eq_ok h
  obtain ⟨_, _, _, h⟩ := bind_eq_ok h
  obtain ⟨m, _, _, h⟩ := bind_eq_ok h
  cases m with
  | none => cases h; exact basic_str _ _
  | some m =>
    obtain ⟨_, _, _, h⟩ := bind_eq_ok h
    cases h; exact basic_str _ _

theorem strC_safe {X : Ctx A} (hX : OwnCheckers X) {w c : Val} {n : Name} : GivesSafe X (strC X w c n) := by
  intro s hs v s' h
  unfold strC at h
  have hg := Pres.guard (slots_keeps hX) .check c w n s hs
  rcases hgs : guard X .check c w n s with ⟨r, s1⟩
  rw [hgs] at h hg
  cases r with
  | ok a =>
    exact GivesSafe.perform (f := asStr X.W) hX (fun v hv _ _ _ _ h => asStr_safe (Guarded.argOK hv) h _) s1 hg v s' h
  | err e => exact safe_basic (defaultReprC_basic h)
  | diverge => cases h

theorem popC_safe {X : Ctx A} (hX : OwnCheckers X) (id : Nat) (w c : Val) (hc : IsChecker c) (op : POp)
    (ha : ∀ a ∈ opArgs op, ArgOK a) : GivesSafe X (popC X id w c op) := by
  have K := slots_keeps hX
  have hp : ArgOK (.proxy id w c) := by rintro i w c h; cases h; exact hc
  cases op with
  | getattr n b =>
    exact .bind (.chkCheck K (fun _ _ => .hasattrX K _ _) _ _ _ _) fun _ => .perform hX fun _ hv => .proxy hX hc hv
  | setattr n v => exact .bind (.guard K _ _ _ _) fun _ => .perform hX fun _ _ => .pureBasic basic_none
  | delattr n => exact .bind (.guard K _ _ _ _) fun _ => .perform hX fun _ _ => .pureBasic basic_none
  | unop u => cases u <;> first | exact .throw _ | exact check1C_safe hX hc
  | call args => exact check1C_safe hX hc
  | getitem k => exact check1C_safe hX hc
  | setitem k v => exact .bind (.guard K _ _ _ _) fun _ => .perform hX fun _ _ => .pureBasic basic_none
  | delitem k => exact .bind (.guard K _ _ _ _) fun _ => .perform hX fun _ _ => .pureBasic basic_none
  | contains v => exact .bind (.guard K _ _ _ _) fun _ => .perform hX fun _ _ => .pureBasic (basic_bool _)
  | len => exact .bind (.guard K _ _ _ _) fun _ => .perform hX fun _ _ => .basic fun _ _ _ h => asLen_ok h
  | iter => exact check1C_safe hX hc
  | next => exact check1C_safe hX hc
  | binL b o => exact check2C_safe hX b hp (ha o (by simp [opArgs]))
  | binR b o => exact check2C_safe hX b (ha o (by simp [opArgs])) hp
  | pow y m => exact powC_safe hX hp (ha y (by simp [opArgs])) (ha m (by simp [opArgs]))
  | rpow x m => exact powC_safe hX (ha x (by simp [opArgs])) hp (ha m (by simp [opArgs]))
  | pow3 x y => exact powC_safe hX (ha x (by simp [opArgs])) (ha y (by simp [opArgs])) hp
  | inplace b o =>
    refine .bind (.guard K _ _ _ _) fun _ => .perform hX fun v hv => ?_
    by_cases h : v = w
    · rw [if_pos h]
      intro s _ r s' hr
      cases hr
      exact .inl ⟨_, _, _, rfl, hc⟩
    · rw [if_neg h]; exact .proxy hX hc hv
  | compare b o =>
    refine .perform hX fun v hv => ?_
    by_cases h : ∃ t, v = .bool t
    · obtain ⟨t, rfl⟩ := h
      exact .pureBasic (basic_bool _)
    · cases v with
      | bool t => exact absurd ⟨_, rfl⟩ h
      | _ => exact .proxy hX hc hv
  | hash => exact .perform hX fun _ _ => .basic fun _ _ _ h => asInt_ok h
  | bool => exact .perform hX fun _ _ => .pureBasic (basic_bool _)
  | lengthHint =>
    exact .tryCatch (.perform K _) (perform_lengthHint hX (.inl ⟨_, rfl⟩)) fun _ => .pureBasic basic_notImpl
  | str => exact strC_safe hX
  | repr => exact strC_safe hX

/-! ### The pure-Python implementation -/

theorem checkNamePy_safe {X : Ctx A} (hX : OwnCheckers X) {id : Nat} {w c : Val} {n : Name} {r : Val → RawOp}
    (hc : IsChecker c) : GivesSafe X (checkNamePy X id w c n r) :=
  .state fun _ hs => .bind (.guard (slots_keeps hX) _ _ _ _) fun _ => .bind .get fun _ =>
    .perform hX fun _ hv => .proxy hX (proxyChecker_ok hs hc) hv

theorem checkNameNonePy_safe {X : Ctx A} (hX : OwnCheckers X) {id : Nat} {w c : Val} {n : Name} {r : Val → RawOp} :
    GivesSafe X (checkNameNonePy X id w c n r) :=
  .state fun _ _ => .bind (.guard (slots_keeps hX) _ _ _ _) fun _ => .bind .get fun _ =>
    .perform hX fun _ _ => .bind (.chkProxy (slots_keeps hX) _ _) fun _ => .pureBasic basic_none

theorem binPy_safe {X : Ctx A} (hX : OwnCheckers X) (b : BinName) {l r : Val} (hl : ArgOK l) (hr : ArgOK r) :
    GivesSafe X (binPy X b l r) := by
  unfold binPy
  split
  · exact checkNamePy_safe hX (hl _ _ _ rfl)
  · exact checkNamePy_safe hX (hr _ _ _ rfl)
  · exact .pureBasic basic_notImpl

theorem powPy_safe {X : Ctx A} (hX : OwnCheckers X) {x y m : Val} (hx : ArgOK x) (hy : ArgOK y) :
    GivesSafe X (powPy X x y m) := by
  unfold powPy
  split
  · exact checkNamePy_safe hX (hx _ _ _ rfl)
  · exact checkNamePy_safe hX (hy _ _ _ rfl)
  · exact .pureBasic basic_notImpl

theorem defaultReprPy_basic {X : Ctx A} {w : Val} {s s' : St A} {v : Val} (h : defaultReprPy X w s = (.ok v, s')) :
    Basic v := by
  unfold defaultReprPy at h
  obtain ⟨_, _, _, h⟩ := bind_eq_ok h
  obtain ⟨_, _, _, h⟩ := bind_eq_ok h
  obtain ⟨_, _, _, h⟩ := bind_eq_ok h
  obtain ⟨_, _, _, h⟩ := bind_eq_ok h
  obtain ⟨_, _, _, h⟩ := bind_eq_ok h
  obtain ⟨_, _, _, h⟩ := bind_eq_ok h
  cases h; exact basic_str _ _

theorem strPy_safe {X : Ctx A} (hX : OwnCheckers X) {id : Nat} {w c : Val} {n : Name} (hc : IsChecker c) :
    GivesSafe X (strPy X id w c n) := by
  have K := slots_keeps hX
  intro s hs v s' h
  unfold strPy at h
  obtain ⟨a, s1, h1, h2⟩ := bind_eq_ok h
  refine asStr_safe (safe_argOK (X := X) (t := s1) ?_) h2 _
  exact GivesSafe.tryCatch (.checkNamePy K _ _ _ _ _) (checkNamePy_safe hX hc)
    (fun _ => .state fun _ _ => .basic fun _ _ _ h => defaultReprPy_basic h) s hs a s1 h1

theorem lengthHintPy_safe {X : Ctx A} (hX : OwnCheckers X) {w : Val} : GivesSafe X (lengthHintPy X w) := by
  have K := slots_keeps hX
  intro s hs v s' h
  unfold lengthHintPy at h
  obtain ⟨m, s1, h1, h2⟩ := bind_eq_ok h
  have hs1 := Pres.tryCatch (p := Exn.isAttr) (h := fun _ => pure none)
    (.bind (.perform K (.getattr w "__length_hint__")) fun v => .pure (some v)) (fun _ => .pure _) s hs
  rw [h1] at hs1
  cases m with
  | none => cases h2; exact safe_basic basic_notImpl
  | some m =>
    rw [run_tryCatch] at h1
    rcases hb : (do let v ← perform X (.getattr w "__length_hint__"); pure (some v) : M A (Option Val)) s with ⟨r, s2⟩
    rw [hb] at h1
    cases r with
    | ok x =>
      cases h1
      obtain ⟨y, s3, h3, h4⟩ := bind_eq_ok hb
      cases h4
      obtain ⟨s4, h4⟩ := perform_ok h3
      exact perform_lengthHint hX (.inr ⟨_, w, _, _, rfl, h4⟩) _ hs1 _ _ h2
    | err e =>
      simp only at h1
      split at h1 <;> cases h1
    | diverge => cases h1

theorem getattrPy_safe {X : Ctx A} (hX : OwnCheckers X) {id : Nat} {w c : Val} (hc : IsChecker c) {n : Name} {inside : Bool}
    (h1 : ¬ (n = "_wrapped" ∧ inside = true)) (h2 : ¬ (n = "_checker" ∧ inside = true)) :
    GivesSafe X (getattrPy X (hasattrX X) id w c n inside) := by
  have K := slots_keeps hX
  have KH : ∀ o n, Pres (SlotsOK X.impl) (hasattrX X o n) := fun _ _ => .hasattrX K _ _
  refine .tryCatch (.getattributePy K KH _ _ _ _ _) ?_ fun _ => ?_
  · unfold getattributePy
    by_cases hb : (n = "_wrapped" ∨ n = "_checker") ∧ inside = false
    · rw [if_pos hb]; exact .throw _
    · rw [if_neg hb]
      have hw : n ≠ "_wrapped" := fun e => by
        cases inside
        · exact hb ⟨.inl e, rfl⟩
        · exact h1 ⟨e, rfl⟩
      have hk : n ≠ "_checker" := fun e => by
        cases inside
        · exact hb ⟨.inr e, rfl⟩
        · exact h2 ⟨e, rfl⟩
      refine .state fun s hs => ?_
      simp only [if_neg hw, if_neg hk]
      refine .bind ?_ fun _ => ?_
      · exact .ite (.pure _) (.chkCheck K KH _ _ _ _)
      · split
        · exact .perform hX fun _ hv => .proxy hX (proxyChecker_ok hs hc) hv
        · exact .bind .get fun _ => .perform hX fun _ hv => .proxy hX (proxyChecker_ok hs hc) hv
  · exact .state fun _ _ => .bind (.chkCheck K KH _ _ _ _) fun _ => .throw _

theorem GivesSafe.bindBasic {X : Ctx A} {α : Type} {x : M A α} {v : Val} (h : Basic v) : GivesSafe X (x >>= fun _ => pure v) := by
  intro s _ v' s' hr
  obtain ⟨_, _, _, h2⟩ := bind_eq_ok hr
  cases h2
  exact safe_basic h

theorem popPy_safe {X : Ctx A} (hX : OwnCheckers X) (hpy : X.impl = .py) (id : Nat) (w c : Val) (hc : IsChecker c) (op : POp)
    (ha : ∀ a ∈ opArgs op, ArgOK a) (hav : Avoids X.impl op) : GivesSafe X (popPy X id w c op) := by
  have K := slots_keeps hX
  obtain ⟨v1, _, v4, v5⟩ := hav hpy
  have hp : ArgOK (.proxy id w c) := by rintro i w c h; cases h; exact hc
  cases op with
  | getattr n b =>
    exact getattrPy_safe hX hc (fun h => v4 (by rw [h.1, h.2])) (fun h => v5 (by rw [h.1, h.2]))
  | setattr n v =>
    show GivesSafe X (setattrPy X id w c n v)
    unfold setattrPy
    by_cases hw : n = "_wrapped"
    · rw [if_pos hw]
      exact .bindBasic basic_none
    rw [if_neg hw]
    by_cases hk : n = "_checker"
    · rw [if_pos hk]
      exact .bindBasic basic_none
    rw [if_neg hk]
    exact .bind .get fun _ => .bind (.guard K _ _ _ _) fun _ => .perform hX fun _ _ => .pureBasic basic_none
  | delattr n =>
    show GivesSafe X (delattrPy X id w c n)
    unfold delattrPy
    split
    · exact .throw _
    · exact .bind .get fun _ => .bind (.guard K _ _ _ _) fun _ => .perform hX fun _ _ => .pureBasic basic_none
  | unop u => unfold popPy; exact checkNamePy_safe hX hc
  | call args => unfold popPy; exact checkNamePy_safe hX hc
  | getitem k => unfold popPy; exact checkNamePy_safe hX hc
  | setitem k v => unfold popPy; exact checkNameNonePy_safe hX
  | delitem k => unfold popPy; exact checkNameNonePy_safe hX
  | contains v =>
    exact .bind .get fun _ => .bind (.guard K _ _ _ _) fun _ => .bind .get fun _ => .perform hX fun _ _ =>
      .bind (.chkProxy K _ _) fun _ => .pureBasic (basic_bool _)
  | len =>
    exact .bind .get fun _ => .bind (.guard K _ _ _ _) fun _ => .bind .get fun _ => .perform hX fun _ _ =>
      .basic fun _ _ _ h => asLen_ok h
  | iter => unfold popPy; exact checkNamePy_safe hX hc
  | next => unfold popPy; exact checkNamePy_safe hX hc
  | binL b o => exact binPy_safe hX b hp (ha o (by simp [opArgs]))
  | binR b o => exact binPy_safe hX b (ha o (by simp [opArgs])) hp
  | pow y m => exact powPy_safe hX hp (ha y (by simp [opArgs]))
  | rpow x m => exact powPy_safe hX (ha x (by simp [opArgs])) hp
  | pow3 x y => exact powPy_safe hX (ha x (by simp [opArgs])) (ha y (by simp [opArgs]))
  | inplace b o =>
    refine .state fun s hs => .bind (.guard K _ _ _ _) fun _ => .bind (.orNone (.perform K _)) fun m => ?_
    by_cases hm : m ≠ .none
    · rw [if_pos hm]
      refine .bind (.perform K _) fun v => .bind (.modify fun s hs => hs) fun _ => ?_
      intro s _ r s' hr
      cases hr
      exact .inl ⟨_, _, _, rfl, hc⟩
    · rw [if_neg hm]
      refine .bind (.perform K _) fun _ => .bind (.perform K _) fun v => ?_
      intro s1 _ r s' hr
      rw [run_newProxy v _ s1 (by
        intro h0
        rcases proxyChecker_ok (i := id) hs hc with ⟨_, _, _, h⟩ | ⟨_, _, _, _, h⟩ <;> rw [h] at h0 <;> cases h0)] at hr
      cases hr
      exact .inl ⟨_, _, _, rfl, proxyChecker_ok hs hc⟩
  | compare b o => exact absurd rfl (v1 b o)
  | hash => exact .bind .get fun _ => .perform hX fun _ _ => .basic fun _ _ _ h => asInt_ok h
  | bool => exact .bind .get fun _ => .perform hX fun _ _ => .pureBasic (basic_bool _)
  | lengthHint => exact .bind .get fun _ => lengthHintPy_safe hX
  | str => exact strPy_safe hX hc
  | repr => exact strPy_safe hX hc

/-! ### The claims -/

theorem pop_slots {X : Ctx A} (hX : OwnCheckers X) (p : Val) (op : POp) (hav : Avoids X.impl op) :
    Pres (SlotsOK X.impl) (pop X p op) := by
  have K := slots_keeps hX
  by_cases hr : ∃ b o, op = .inplace b o
  · obtain ⟨b, o, rfl⟩ := hr
    unfold pop
    split
    · split
      · exact .popC K _ _ _ _
      · exact .inplacePy K (fun _ _ h => h) _ _ _ _ _
    · exact .throw _
  · by_cases ha : X.impl = .py ∧ ∃ n v, op = .setattr n v ∧ (n = "_wrapped" ∨ n = "_checker")
    · obtain ⟨hpy, n, v, rfl, hn⟩ := ha
      unfold pop
      split
      · rw [hpy]
        rcases hn with rfl | rfl
        · exact .bind (.modify fun s hs => hs) fun _ => .pure _
        · refine .bind (.modify fun s hs => ?_) fun _ => .pure _
          intro h i k hk
          simp only at hk
          split at hk
          · cases hk; exact (hav hpy).2.1 v rfl
          · exact hs (by assumption) i k hk
      · exact .throw _
    · refine .pop K p op fun h => ?_
      obtain ⟨hpy, h | ⟨v, h⟩ | ⟨v, h⟩⟩ := h
      · exact absurd h hr
      · exact absurd ⟨hpy, _, v, h, .inl rfl⟩ ha
      · exact absurd ⟨hpy, _, v, h, .inr rfl⟩ ha

theorem pop_safe {X : Ctx A} (hX : OwnCheckers X) (p : Val) (hp : ArgOK p) (op : POp)
    (ha : ∀ a ∈ opArgs op, ArgOK a) (hav : Avoids X.impl op) : GivesSafe X (pop X p op) := by
  unfold pop
  split
  · cases hi : X.impl with
    | c => exact popC_safe hX _ _ _ (hp _ _ _ rfl) op ha
    | py => exact popPy_safe hX hi _ _ _ (hp _ _ _ rfl) op ha hav
  · exact .throw _

/-- Everything untrusted code ever gets hold of is safe, if what it started with was. -/
theorem confinement {X : Ctx A} (hX : OwnCheckers X) {s s' : St A} {held held' : List (Val × St A)}
    (hs : SlotsOK X.impl s) (h0 : ∀ e ∈ held, Safe X e.1 e.2) (h : Attack X (s, held) (s', held')) :
    SlotsOK X.impl s' ∧ ∀ e ∈ held', Safe X e.1 e.2 := by
  generalize ha : (s, held) = a at h
  generalize hb : (s', held') = b at h
  induction h generalizing s' held' with
  | nil => subst ha; cases hb; exact ⟨hs, h0⟩
  | @cons b c _ hm ih =>
    subst hb
    obtain ⟨sb, hb⟩ := b
    obtain ⟨i1, i2⟩ := ih rfl
    have arg : ∀ v, v ∈ hb.map Prod.fst → ArgOK v := by
      intro v hv
      obtain ⟨e, he, rfl⟩ := List.mem_map.mp hv
      exact safe_argOK (i2 e he)
    cases hm with
    | @returns _ _ p op v _ hp harg hav hr =>
      refine ⟨?_, ?_⟩
      · have := pop_slots hX p op hav _ i1
        rwa [hr] at this
      · intro e he
        rcases List.mem_cons.mp he with rfl | he
        · exact pop_safe hX p (arg _ hp) op (fun a ha => arg a (harg a ha)) hav _ i1 _ _ hr
        · exact i2 e he
    | @raises _ _ p op _ _ hp harg hav hr =>
      refine ⟨?_, i2⟩
      have := pop_slots hX p op hav _ i1
      rwa [hr] at this
    | constant hb =>
      refine ⟨i1, fun e he => ?_⟩
      rcases List.mem_cons.mp he with rfl | he
      · exact safe_basic hb
      · exact i2 e he
    | elsewhere hs => exact ⟨hs, i2⟩

/-- **C11** With compiled proxies: code that starts with safe values and applies any sequence of
operations to what it holds, while anybody else may change the state in any way at any time, only
ever gets security proxies guarded by the package's checkers, basic values, strings, length hints and
objects that the registry declared unprotected when they were handed out. -/
theorem C11_confinement (X : Ctx A) (hc : X.impl = .c) (hX : OwnCheckers X) (s s' : St A) (held held' : List (Val × St A))
    (h0 : ∀ e ∈ held, Safe X e.1 e.2) (h : Attack X (s, held) (s', held')) : ∀ e ∈ held', Safe X e.1 e.2 :=
  (confinement hX (fun h => by rw [hc] at h; cases h) h0 h).2

/-- Objects of a type with a checker do not count as unprotected. -/
theorem not_unprotected (X : Ctx A) (hreg : ∀ r s, (X.W.apply r s).2.reg = s.reg) (v : Val) (t : St A) (k : Val)
    (hk : Entry t.reg (typeOf X.W v) k) (hkc : IsChecker k) (hex : X.W.isExc v = false) : ¬ Unprotected X v t := by
  rintro ⟨s1, h⟩
  have huniq : ∀ e e', Entry t.reg (typeOf X.W v) e → Entry t.reg (typeOf X.W v) e' → e = e' := by
    rintro e e' (h | ⟨h, rfl⟩) (h' | ⟨h', rfl⟩) <;> rw [h] at h' <;> cases h' <;> rfl
  have hcalls : ∀ c r s2 s3, Calls X.W s2 v c r s3 → s3.reg = s2.reg := by
    intro c r s2 s3 h
    cases h with
    | code _ _ h => subst h; exact hreg _ _
    | _ => rfl
  have hres : ∀ c s2 r s3, Resolves X.W v c s2 r s3 → s3.reg = s2.reg := by
    intro c s2 r s3 h
    induction h with
    | found => rfl
    | none _ h => exact hcalls _ _ _ _ h
    | step _ h _ _ _ ih => rw [ih, hcalls _ _ _ _ h]
    | fails _ h => exact hcalls _ _ _ _ h
    | hangs _ h => exact hcalls _ _ _ _ h
  have hnc : ¬ IsChecker .noProxy := by rintro (⟨_, _, _, h⟩ | ⟨_, _, _, _, h⟩) <;> cases h
  cases h with
  | rock h => rw [huniq _ _ hk h] at hkc; exact absurd hkc hnc
  | exception _ _ h => rw [hex] at h; cases h
  | @resolved e _ _ he _ _ hr =>
    rw [← hres _ _ _ _ hr] at he
    rw [huniq _ _ hk he] at hkc
    cases hr with
    | found _ => rcases hkc with ⟨_, _, _, h⟩ | ⟨_, _, _, _, h⟩ <;> cases h
    | none h => exact absurd hkc h
    | step h => exact absurd hkc h

/-- **C11** In particular an object whose type has a checker registered, or no registration at all, is
never obtained bare (length hints and strings apart), if application code does not re-register types
in the middle of an operation. -/
theorem C11_protected_types (X : Ctx A) (hc : X.impl = .c) (hX : OwnCheckers X) (s s' : St A) (held held' : List (Val × St A))
    (hreg : ∀ r s, (X.W.apply r s).2.reg = s.reg)
    (h0 : ∀ e ∈ held, Safe X e.1 e.2) (h : Attack X (s, held) (s', held')) (o : Nat) (t : St A) (k : Val)
    (hv : (.obj o, t) ∈ held') (hk : Entry t.reg (X.W.objType o) k) (hkc : IsChecker k)
    (hex : X.W.isExc (.obj o) = false) :
    X.W.strSub (.obj o) = true ∨ LengthHint X (.obj o) t := by
  rcases C11_confinement X hc hX s s' held held' h0 h _ hv with ⟨_, _, _, h, _⟩ | ⟨_, h⟩
  · cases h
  · rcases h with h | h | h | h
    · rcases h with h | h | ⟨_, h⟩ | ⟨_, h⟩ | ⟨_, _, h⟩ <;> cases h
    · exact .inl h
    · exact .inr h
    · exact absurd h (not_unprotected X hreg _ t k hk hkc hex)

/-- **C12** With pure-Python proxies the same holds for every program that makes no rich comparison
of a proxy, assigns no proxy's `_checker` anything but a checker of the package, and does not read
the private slots from a frame whose `self` is the proxy.  (Assigning `_wrapped` is harmless here: an
operation can only be pointed at what the program holds anyway.)  Each of the three is
necessary, see `C12_necessary`. -/
theorem C12_confinement (X : Ctx A) (_hpy : X.impl = .py) (hX : OwnCheckers X) (s s' : St A) (held held' : List (Val × St A))
    (hs : ∀ i k, s.ovC i = some k → IsChecker k)
    (h0 : ∀ e ∈ held, Safe X e.1 e.2) (h : Attack X (s, held) (s', held')) : ∀ e ∈ held', Safe X e.1 e.2 :=
  (confinement hX (fun _ => hs) h0 h).2

theorem ex_ownCheckers (impl : Impl) : OwnCheckers (Ex.X impl) where
  results := by
    intro r s v s' h
    simp only [Ex.X, Ex.W] at h
    split at h <;> cases h <;> trivial
  own := by
    intro v s k s' h
    simp only [Ex.X, Ex.W] at h
    cases h
  slots := by
    intro r s h
    simp only [Ex.X, Ex.W]
    split <;> exact h

theorem ex_reg (impl : Impl) : ∀ r s, ((Ex.X impl).W.apply r s).2.reg = s.reg := by
  intro r s
  simp only [Ex.X, Ex.W]
  split <;> rfl

/-- The example world's proxy of object 1. -/
def exP : Val := .proxy 70 (.obj 1) Ex.c1

theorem exP_safe (impl : Impl) (t : St Unit) : ∀ e ∈ [(exP, t)], Safe (Ex.X impl) e.1 e.2 := by
  intro e he
  cases List.mem_singleton.mp he
  exact .inl ⟨_, _, _, rfl, .inl ⟨_, _, _, rfl⟩⟩

-- A program of two operations: read an attribute, then call what was read.  The second is refused.
example : ∃ s' v t, Attack (Ex.X .c) (Ex.s1 none, [(exP, Ex.s1 none)]) (s', [(v, t), (exP, Ex.s1 none)]) ∧
    v = .proxy 100 (.obj 7) (.checker 1 2 3) := by
  have h1 : pop (Ex.X .c) exP (.getattr "a" false) (Ex.s1 none) =
      (.ok (.proxy 100 (.obj 7) (.checker 1 2 3)), (pop (Ex.X .c) exP (.getattr "a" false) (Ex.s1 none)).2) := rfl
  have h2 : (pop (Ex.X .c) (.proxy 100 (.obj 7) (.checker 1 2 3)) (.call []) (pop (Ex.X .c) exP (.getattr "a" false) (Ex.s1 none)).2)
      = (.err (.forbidden "__call__" (.obj 7)), (pop (Ex.X .c) exP (.getattr "a" false) (Ex.s1 none)).2) := rfl
  refine ⟨_, _, _, .cons (.cons .nil (.returns (p := exP) (by simp) (by simp [opArgs]) (fun h => by cases h) h1))
    (.raises (p := .proxy 100 (.obj 7) (.checker 1 2 3)) (by simp) (by simp [opArgs]) (fun h => by cases h) h2), rfl⟩

/-- **C12** The three things avoided are necessary: each lets a program that holds only safe values (a
proxy, a constant, an instance of a subclass of `str`) get hold of something unsafe.  A comparison
hands out the wrapped object's raw answer; reading the slots from a method whose `self` is the proxy
hands out the object or the checker; after assigning `_checker` an object of the program's choice
decides.  The compiled proxy does none of this. -/
theorem C12_necessary :
    (∃ v s', pop (Ex.X .py) exP (.compare .eq (.int 0)) (Ex.s1 none) = (.ok v, s') ∧ ¬ Safe (Ex.X .py) v s')
    ∧ (∃ v s', pop (Ex.X .py) exP (.getattr "_wrapped" true) (Ex.s1 none) = (.ok v, s') ∧ ¬ Safe (Ex.X .py) v s')
    ∧ (∃ v s', pop (Ex.X .py) exP (.getattr "_checker" true) (Ex.s1 none) = (.ok v, s') ∧ ¬ Safe (Ex.X .py) v s')
    ∧ (Safe (Ex.X .py) (.obj 9) (Ex.s1 none) ∧
        ∃ s1 v s', pop (Ex.X .py) exP (.setattr "_checker" (.obj 9)) (Ex.s1 none) = (.ok .none, s1) ∧
        pop (Ex.X .py) exP (.getattr "secret" false) s1 = (.ok v, s') ∧ ¬ Safe (Ex.X .py) v s')
    ∧ (∃ s', pop (Ex.X .c) exP (.compare .eq (.int 0)) (Ex.s1 none) = (.ok (.proxy 100 (.obj 6) (.checker 1 2 3)), s'))
    ∧ (∃ s', pop (Ex.X .c) exP (.getattr "_wrapped" true) (Ex.s1 none) = (.err (.forbidden "_wrapped" (.obj 1)), s'))
    ∧ (∃ s', pop (Ex.X .c) exP (.setattr "_checker" (.obj 9)) (Ex.s1 none) = (.err (.forbidden "_checker" (.obj 1)), s')) := by
  have key : ∀ (v : Val) (t : St Unit), t.reg = Ex.s0.reg → Ex.s0.reg.get? (.ty (typeOf Ex.W v)) = none → Ex.W.isExc v = false →
      Ex.W.strSub v = false → ¬ IsProxy v → ¬ Basic v →
      (∀ w, t.trace.getLast? ≠ some (.performed (.method w "__length_hint__" []))) →
      (∀ h, t.trace.getLast? ≠ some (.performed (.call h []))) → ¬ Safe (Ex.X .py) v t := by
    intro v t hr ht he hs hnp hnb h1 h2 h
    rcases h with ⟨_, _, _, h, _⟩ | ⟨_, h | h | h | h⟩
    · exact hnp ⟨_, _, _, h⟩
    · exact hnb h
    · rw [show (Ex.X .py).W.strSub v = false from hs] at h; cases h
    · obtain ⟨r, s, s', _, rfl, h, ⟨w, rfl⟩ | ⟨m, _, _, _, rfl, _⟩⟩ := h
      · exact h1 _ h
      · exact h2 _ h
    · refine not_unprotected (Ex.X .py) (ex_reg .py) v t (.checker 1 2 3) ?_ (.inl ⟨_, _, _, rfl⟩) he h
      rw [hr]
      exact .inr ⟨ht, rfl⟩
  have nb : ∀ o, ¬ Basic (.obj o) := by
    rintro o (h | h | ⟨_, h⟩ | ⟨_, h⟩ | ⟨_, _, h⟩) <;> cases h
  have np : ∀ o, ¬ IsProxy (.obj o) := by rintro o ⟨_, _, _, h⟩; cases h
  refine ⟨⟨.obj 6, _, rfl, key _ _ rfl (by decide) rfl rfl (np _) (nb _) ?_ ?_⟩,
    ⟨.obj 1, _, rfl, key _ _ rfl (by decide) rfl rfl (np _) (nb _) ?_ ?_⟩,
    ⟨Ex.c1, _, rfl, key _ _ rfl (by decide) rfl rfl ?_ ?_ ?_ ?_⟩,
    ⟨.inr ⟨np _, .inr (.inl rfl)⟩, _, .obj 7, _, rfl, rfl, key _ _ rfl (by decide) rfl rfl (np _) (nb _) ?_ ?_⟩, ⟨_, rfl⟩, ⟨_, rfl⟩, ⟨_, rfl⟩⟩
  case refine_5 => rintro ⟨_, _, _, h⟩; cases h
  case refine_6 => rintro (h | h | ⟨_, h⟩ | ⟨_, h⟩ | ⟨_, _, h⟩) <;> cases h
  all_goals intro x h; cases h

end ZS.Props
