import Verif.Spec.CSession
import Verif.Props.Slots
import Verif.Props.Deploy

/-!
# C75: from the configuration file to the compiled functions
-/

namespace ZS.Props
open ZS ZS.CM ZS.Spec

variable {A : Type} {E : Env} {I : Interp A} {β : Type}

/-! ## A passed check -/

theorem name_str {n a : Nat} {t : String} (h : I.val n = .str a t) : I.name n = t := by
  unfold Interp.name
  rw [h]

theorem name_const (F : Fits E I) (t : String) : I.name (E.const t) = t := name_str (F.const t)

theorem explains_cons {s s' : St A} {a : Ask} {l : List Ask} (h : Explains E I s (a :: l) s') :
    ∃ s1, Explained E I s a s1 ∧ Explains E I s1 l s' := by
  cases h with
  | cons h1 h2 => exact ⟨_, h1, h2⟩

theorem explains_append {s s' : St A} {l l' : List Ask} (h : Explains E I s (l ++ l') s') :
    ∃ s1, Explains E I s l s1 ∧ Explains E I s1 l' s' := by
  induction l generalizing s with
  | nil => exact ⟨s, .nil s, h⟩
  | cons a l ih =>
    obtain ⟨s1, h1, h2⟩ := explains_cons h
    obtain ⟨s2, h3, h4⟩ := ih h2
    exact ⟨s2, .cons h1 h3, h4⟩

/-- The dictionary has no entry. -/
theorem missing_none {g : Nat} {perms : Ptr} {n a : Nat} {t : String} {l : List Ask} {s s' : St A} (hn : I.val n = .str a t)
    (hf : FieldIs E I s g perms) (hm : Missing n perms l) (h : Explains E I s l s') : s' = s ∧ (s.dicts g).get? t = none := by
  cases hm with
  | noDict =>
    cases h
    have hf : s.dicts g = [] := hf
    exact ⟨rfl, by rw [hf]; rfl⟩
  | @notFound d e r hr =>
    obtain ⟨s1, h1, h2⟩ := explains_cons h
    cases h2
    simp only [Explained, hf.2, if_false, hf.1, name_str hn] at h1
    refine ⟨h1.1, ?_⟩
    have h3 := h1.2
    cases hd : (s.dicts g).get? t with
    | none => rfl
    | some v => rw [hd] at h3; exact nomatch hr.symm.trans h3.1

theorem char2 {t : List Char} (h0 : t[0]? = some '_') (h1 : t[1]? = some '_') : ∃ r, t = '_' :: '_' :: r := by
  match t with
  | [] => cases h0
  | [_] => cases h1
  | a :: b :: r =>
    simp only [List.getElem?_cons_zero, List.getElem?_cons_succ, Option.some.injEq] at h0 h1
    exact ⟨r, by rw [h0, h1]⟩

/-- The calls by which a native checker comes to grant a name, answered by the surroundings: the check of the model grants it. -/
theorem grants_check (F : Fits E I) {o n a g : Nat} {t : String} {perms : Ptr} {l : List Ask} {s s' : St A}
    (hn : I.val n = .str a t) (hf : FieldIs E I s g perms) (hg : Grants E o n perms l) (h : Explains E I s l s') :
    (plainCheckC I.X (hasattrX I.X) g (I.val o) t s).1 = .ok () := by
  have hname := name_str hn
  cases hg with
  | @isPublic d e r hr ho =>
    obtain ⟨s1, h1, -⟩ := explains_cons h
    simp only [Explained, hf.2, if_false, hf.1, hname] at h1
    have h3 := h1.2
    unfold plainCheckC
    simp only [run_bind, run_get]
    cases hd : (s.dicts g).get? t with
    | none => rw [hd] at h3; rw [h3] at hr; cases hr
    | some v =>
      rw [hd] at h3
      have hv : v = publicV := by rw [← h3.2, ho, F.checkerPublic]
      simp only [hv, if_true]
      rfl
  | @permitted d e1 e2 e3 e4 e5 e6 r1 r2 r3 r4 r5 r6 hr1 hpub hr2 hr3 hr5 =>
    obtain ⟨s1, h1, h⟩ := explains_cons h
    obtain ⟨s2, h2, h⟩ := explains_cons h
    obtain ⟨s3, h3, h⟩ := explains_cons h
    obtain ⟨s4, h4, h⟩ := explains_cons h
    obtain ⟨s5, h5, h⟩ := explains_cons h
    simp only [Explained, hf.2, if_false, hf.1, hname] at h1
    obtain ⟨rfl, h1⟩ := h1
    simp only [Explained, name_const F, and_self, if_true] at h2
    simp only [Explained, name_const F, if_true] at h3
    simp only [Explained] at h4
    subst h4
    simp only [Explained] at h5
    obtain ⟨rfl, h5⟩ := h5
    unfold plainCheckC
    simp only [run_bind, run_get]
    cases hd : (s1.dicts g).get? t with
    | none => rw [hd] at h1; rw [h1] at hr1; cases hr1
    | some v =>
      rw [hd] at h1
      have hv : v ≠ publicV := by
        rw [← h1.2, ← F.checkerPublic]
        exact fun h => hpub (F.inj _ _ h)
      simp only [hv, if_false]
      obtain ⟨h2a, h2b⟩ := h2
      unfold slot at h2a h2b
      simp only [run_bind, run_get] at h2a h2b
      simp only [run_bind, askInteraction, run_get]
      cases hix : (s1.threads I.X.tid).interaction with
      | none => rw [hix] at h2b; exact nomatch hr2.symm.trans h2b.1
      | some ix =>
        rw [hix] at h2a h2b
        have hs2 : s1 = s2 := h2a
        subst hs2
        have hix2 : I.val r2.obj = ix := h2b.2
        rw [hix2, h1.2] at h3
        obtain ⟨h3a, h3b⟩ := h3
        rcases hrun : ixCheckPermission I.X ix v (I.val o) s1 with ⟨res, s3'⟩
        rw [hrun] at h3b
        simp only [run_bind, hrun]
        cases res with
        | err e => exact nomatch hr3.symm.trans h3b.1
        | diverge => cases h3b
        | ok w =>
          have hw : truthy I.X.W w = true := by
            rw [← h3b.2]
            unfold TestAnswer at h5
            cases htr : truthy I.X.W (I.val r3.obj) with
            | true => rfl
            | false => rw [htr] at h5; simp at h5; omega
          simp only [run_pure, hw, if_true]
  | @available _ l0 e1 e2 e3 r1 r2 r3 hm hs hr1 hb1 hr2 hb2 hr3 =>
    obtain ⟨s0, h0, h'⟩ := explains_append h
    obtain ⟨rfl, hnone⟩ := missing_none hn hf hm h0
    obtain ⟨s1, h1, h⟩ := explains_cons h'
    obtain ⟨s2, h2, h⟩ := explains_cons h
    obtain ⟨s3, h3, h⟩ := explains_cons h
    simp only [Explained, hn] at h1 h2
    obtain ⟨rfl, -, h1⟩ := h1
    obtain ⟨rfl, -, h2⟩ := h2
    simp only [Explained, hname, true_implies] at h3
    rw [h1] at hb1
    rw [h2] at hb2
    obtain ⟨rest, ht⟩ := char2 hb1 hb2
    have hav : t ∈ s2.avail := by
      have := h3.2
      unfold TestAnswer at this
      by_cases hmem : t ∈ s2.avail
      · exact hmem
      · simp [hmem] at this; omega
    unfold plainCheckC
    simp only [run_bind, run_get, hnone, isDunder, ht, if_true, hav]
    rfl
  | @noIter _ l0 e1 e2 e3 e4 e5 r1 r2 r3 r4 r5 hm hs hr1 hb1 hr2 hb2 hr3 hr4 hit hr5 =>
    obtain ⟨s0, h0, h'⟩ := explains_append h
    obtain ⟨rfl, hnone⟩ := missing_none hn hf hm h0
    obtain ⟨s1, h1, h⟩ := explains_cons h'
    obtain ⟨s2, h2, h⟩ := explains_cons h
    obtain ⟨s3, h3, h⟩ := explains_cons h
    obtain ⟨s4, h4, h⟩ := explains_cons h
    obtain ⟨s5, h5, h⟩ := explains_cons h
    simp only [Explained, hn] at h1 h2 h4
    obtain ⟨rfl, -, h1⟩ := h1
    obtain ⟨rfl, -, h2⟩ := h2
    simp only [Explained, hname, true_implies] at h3
    obtain ⟨rfl, h3⟩ := h3
    obtain ⟨rfl, -, h4⟩ := h4
    simp only [Explained, hname] at h5
    have ht : t = "__iter__" := String.toList_inj.1 (h4.symm.trans hit)
    subst ht
    have hav : "__iter__" ∉ s4.avail := by
      intro hmem
      simp [TestAnswer, hmem] at h3
      omega
    obtain ⟨-, b, hb, h5⟩ := h5
    have hbf : b = false := by
      cases b with
      | false => rfl
      | true => simp [TestAnswer] at h5; omega
    subst hbf
    unfold plainCheckC
    rcases hrun : hasattrX I.X (I.val o) "__iter__" s4 with ⟨res, s6⟩
    rw [hrun] at hb
    simp only at hb
    subst hb
    have hd : isDunder "__iter__" = true := by decide
    simp only [run_bind, run_get, hnone, hd, if_true, hav, if_false, hrun, Bool.false_eq_true]
    rfl

/-- The checks of a proxy whose checker is a plain one. -/
theorem passes_check (F : Fits E I) {m : Mem} {s s' : St A} (hf : Fields E I m s) {self name a i j g st : Nat} {w : Val} {meth t : String}
    {k : CheckKind} {l : List Ask} (hp : I.val self = .proxy i w (.checker j g st)) (hn : I.val name = .str a t)
    (hk : kindOf meth = some k) (h : Passes E m self meth name l) (hs : Explains E I s l s') :
    (chkCheck I.X (hasattrX I.X) k (.checker j g st) w t s).1 = .ok () := by
  have hw := F.wrapped _ _ _ _ hp
  have hc := F.checkerOf _ _ _ _ hp
  have ha := F.assSlot (E.checkerOf self)
  rw [hc] at ha
  cases h with
  | @method e1 e2 r1 r2 h1 h2 =>
    obtain ⟨s1, h3, -⟩ := explains_cons hs
    have hne : ¬ meth = "checkPermission" := by
      intro h
      subst h
      cases hk
    simp only [Explained, name_const F, hne, if_false, hk, hw, hc, name_str hn] at h3
    obtain ⟨-, h3⟩ := h3
    cases hr : (chkCheck I.X (hasattrX I.X) k (.checker j g st) w t s).1 with
    | ok u => rfl
    | err e => rw [hr] at h3; exact nomatch h2.symm.trans h3.1
    | diverge => rw [hr] at h3; cases h3
  | slot h1 h2 => rw [h2] at ha; cases ha
  | native h1 h2 h3 =>
    have hns : k ≠ .setattr := by
      rintro rfl
      unfold kindOf at hk
      split at hk
      · cases hk
      · split at hk
        · cases hk
        · cases hk
    have hfi := hf (E.checkerOf self) g st (by rw [hc]; rfl)
    have := grants_check F hn hfi.1 h3 hs
    rw [hw] at this
    have he : chkCheck I.X (hasattrX I.X) k (.checker j g st) w t = plainCheckC I.X (hasattrX I.X) g w t := by
      unfold chkCheck plainCheck
      rw [F.impl]
      cases k <;> first | rfl | exact absurd rfl hns
    rw [he]
    exact this

/-! ## What the functions ask for is what the operations need -/

theorem asks_slot (base : TSlot → Option β) {p fuel : Nat} {op : POp} {sl : TSlot} {args : Args} {f : CFn} {x : C Ptr}
    (ha : Asks E I p op sl args) (hf : fuel ≤ I.X.fuel) (hs : ready proxyOwn base sl = some (.inl f))
    (hx : runObj E fuel f args = some x) : ObjSlot E I p x op := by
  have hs := (ready_inl _ _ _ _).1 hs
  cases ha with
  | getattr inside hn => cases hs; cases hx; exact .getattr inside hf hn
  | unop u hu =>
    have hu' := hu
    simp only [List.mem_cons, List.not_mem_nil, or_false] at hu
    rcases hu with rfl | rfl | rfl | rfl <;> cases hs <;> cases hx <;> exact .unary _ hf hu'
  | number u hu hn =>
    have hu' := hu
    simp only [List.mem_cons, List.not_mem_nil, or_false] at hu
    rcases hu with rfl | rfl <;> cases hs <;> cases hx <;> exact .number _ hf hu' hn
  | call => cases hs; cases hx; exact .call hf
  | getitem => cases hs; cases hx; exact .getitem hf
  | igetitem => cases hs; cases hx; exact .igetitem hf
  | iter => cases hs; cases hx; exact .iter hf
  | next => cases hs; cases hx; exact .next hf
  | binL b => cases b <;> cases hs <;> cases hx <;> exact .binL _ hf
  | binR b => cases b <;> cases hs <;> cases hx <;> exact .binR _ hf
  | pow => cases hs; cases hx; exact .pow hf
  | rpow => cases hs; cases hx; exact .rpow hf
  | pow3 => cases hs; cases hx; exact .pow3 hf
  | inplace b hb => cases b <;> first | exact absurd rfl hb | (cases hs; cases hx; exact .inplace _ hf hb)
  | ipow => cases hs; cases hx; exact .ipow hf
  | compare b => cases hs; cases hx; exact .compare b hf
  | str => cases hs; cases hx; exact .str
  | repr => cases hs; cases hx; exact .repr

theorem asksInt_slot (base : TSlot → Option β) {p : Nat} {op : POp} {sl : TSlot} {args : Args} {f : CFn} {x : C Int}
    (ha : AsksInt I p op sl args) (hs : ready proxyOwn base sl = some (.inl f))
    (hx : runInt E f args = some x) : IntSlot E I p x op := by
  have hs := (ready_inl _ _ _ _).1 hs
  cases ha with
  | setattr hn => cases hs; cases hx; exact .setattr hn
  | delattr hn => cases hs; cases hx; exact .delattr hn
  | setitem => cases hs; cases hx; exact .setitem
  | delitem => cases hs; cases hx; exact .delitem
  | isetitem => cases hs; cases hx; exact .isetitem
  | idelitem => cases hs; cases hx; exact .idelitem
  | contains => cases hs; cases hx; exact .contains
  | len s h => rcases h with rfl | rfl <;> cases hs <;> cases hx <;> exact .len
  | hash => cases hs; cases hx; exact .hash
  | bool => cases hs; cases hx; exact .bool

/-! ## What passes the check is carried out -/

instance : Harmless Intact where
  refl _ := ⟨rfl, rfl⟩
  trans h h' := h.trans h'
  own _ _ := ⟨rfl, rfl⟩
  loose _ _ := ⟨rfl, rfl⟩
  err _ _ _ := ⟨rfl, rfl⟩
  call _ _ _ _ := ⟨rfl, rfl⟩

/-- The call is among those made. -/
def Makes {α : Type} (u : UserFn) (args : List Nat) (y : C α) : Prop :=
  ∀ m a m', y m = .ok a m' → ∃ l e r, m'.asked = l ++ m.asked ∧ ⟨.user u, args, e, r⟩ ∈ l

theorem Makes.of_leaves {α : Type} {u : UserFn} {args : List Nat} {y : C α}
    (h : ∀ m, Leaves y m fun _ l => ∃ e r, ⟨.user u, args, e, r⟩ ∈ l) : Makes u args y := by
  intro m a m' hy
  obtain ⟨-, l, h1, e, r, h2⟩ := h m a m' hy
  exact ⟨l.reverse, e, r, h1, List.mem_reverse.2 h2⟩

theorem Makes.bind {α γ : Type} {u : UserFn} {args : List Nat} {y : C α} {k : α → C γ} (h : Makes u args y)
    (hk : ∀ a, Along Longer (k a)) : Makes u args (y >>= k) := by
  intro m a m' hy
  rw [bind_run] at hy
  cases hm : y m with
  | fault f m1 => rw [hm] at hy; cases hy
  | diverge => rw [hm] at hy; cases hy
  | ok b m1 =>
    rw [hm] at hy
    obtain ⟨l, e, r, h1, h2⟩ := h m b m1 hm
    obtain ⟨l', h3⟩ := hk b m1 a m' hy
    exact ⟨l' ++ l, e, r, by rw [h3, h1, List.append_assoc], List.mem_append_right _ h2⟩

theorem Makes.api {u : UserFn} {args : List Nat} : Makes u args (CM.api E u args) :=
  .of_leaves fun _ => .callObj' fun e r => ⟨e, r, List.mem_singleton.2 rfl⟩

/-- The code begins with the check, and if it is passed makes the call. -/
def Opens {α : Type} (E : Env) (x : C α) (self : Nat) (meth : String) (name : Nat) (u : UserFn) (args : List Nat) : Prop :=
  ∃ y z : C α, (∀ m a m', x m = .ok a m' → (check E self meth name >>= fun i => if 0 ≤ i then y else z) m = .ok a m') ∧
    Along Longer y ∧ Along Longer z ∧ Makes u args y

theorem after_useAll {α : Type} {l : List Nat} {x : C α} {m : Mem} {a : α} {m' : Mem} (h : (useAll E l >>= fun _ => x) m = .ok a m') :
    x m = .ok a m' := by
  have key : ∀ l : List Nat, ∀ b m1, useAll E l m = .ok b m1 → m1 = m := by
    intro l
    induction l with
    | nil => intro b m1 h; cases h; rfl
    | cons o l ih =>
      intro b m1 h
      have h' : (CM.use E o >>= fun _ => useAll E l) m = .ok b m1 := h
      rw [bind_run] at h'
      unfold CM.use at h'
      cases ha : alive E m o with
      | true => simp only [ha, if_true] at h'; exact ih b m1 h'
      | false => simp only [ha, Bool.false_eq_true, if_false] at h'; cases h'
  rw [bind_run] at h
  cases hu : useAll E l m with
  | fault f m1 => rw [hu] at h; cases h
  | diverge => rw [hu] at h; cases h
  | ok b m1 =>
    rw [hu] at h
    cases key l b m1 hu
    exact h

theorem opens_obj {x : C Ptr} {self : Nat} {meth : String} {name : Nat} {u : UserFn} {args : List Nat}
    (hc : CheckedObj E x self meth name u args)
    (hn : u ∈ [.special "__int__", .special "__float__"] → E.hasNumber (E.wrapped self) = true) :
    Opens E x self meth name u args := by
  have res : ∀ {fuel self : Nat} {u : UserFn} {args : List Nat} {f : C Ptr}, Along Longer f → Makes u args f →
      Along Longer (f >>= fun result => proxyResult E fuel self result) ∧
      Makes u args (f >>= fun result => proxyResult E fuel self result) :=
    fun h1 h2 => ⟨.bind h1 fun _ => .proxyResult _ _ _, h2.bind fun _ => .proxyResult _ _ _⟩
  have std : ∀ {fuel self name : Nat} {meth : String} {u : UserFn} {args : List Nat} {f x : C Ptr}, Along Longer f → Makes u args f →
      (∀ m a m', x m = .ok a m' → (check E self meth name >>= fun i => if 0 ≤ i then
        (f >>= fun result => proxyResult E fuel self result) else pure .none) m = .ok a m') →
      Opens E x self meth name u args :=
    fun h1 h2 h3 => ⟨_, _, h3, (res h1 h2).1, .pure _, (res h1 h2).2⟩
  have inp : ∀ {fuel self name : Nat} {u : UserFn} {args : List Nat} {f x : C Ptr}, Along Longer f → Makes u args f →
      (∀ m a m', x m = .ok a m' → (check E self "check" name >>= fun i => if 0 ≤ i then
        (f >>= fun result => if result = some (E.wrapped self) then do
          decref E (E.wrapped self)
          incref E self
          pure (some self)
        else proxyResult E fuel self result) else pure .none) m = .ok a m') →
      Opens E x self "check" name u args := by
    intro fuel self name u args f x h1 h2 h3
    have h4 : ∀ result : Ptr, Along Longer (if result = some (E.wrapped self) then do
          decref E (E.wrapped self)
          incref E self
          pure (some self)
        else proxyResult E fuel self result) := fun _ => by fields
    exact ⟨_, _, h3, .bind h1 h4, .pure _, h2.bind h4⟩
  cases hc with
  | getattr => exact std (.api _ _) .api fun _ _ _ h => h
  | unary => exact std (.api _ _) .api fun _ _ _ h => h
  | number op hop =>
    have hnum : E.hasNumber (E.wrapped self) = true := by
      refine hn ?_
      simp only [List.mem_cons, List.not_mem_nil, or_false] at hop
      rcases hop with rfl | rfl <;> simp
    refine std (.callNumber _ _) (.of_leaves fun m => ?_) fun _ _ _ h => h
    unfold callNumber
    simp only [hnum, if_true]
    exact .bind (.use fun _ _ => .callObj' fun e r => ⟨e, r, by simp⟩)
  | call => exact std (.api _ _) .api fun _ _ _ h => h
  | getitem => exact std (.api _ _) .api fun _ _ _ h => h
  | iter => exact std (.api _ _) .api fun _ _ _ h => h
  | next => exact std (.callNext _) (.of_leaves fun m => .callNext' fun e r => ⟨e, r, by simp⟩) fun _ _ _ h => h
  | binL op rop hp =>
    rename_i fuel o
    refine std (fuel := fuel) (f := api E (.binary op) [E.wrapped self, o]) (.api _ _) .api fun _ _ _ h => ?_
    unfold check2 at h
    simp only [hp, if_true] at h
    exact after_useAll h
  | binR op rop ho hp =>
    rename_i fuel o
    refine std (fuel := fuel) (f := api E (.binary op) [o, E.wrapped self]) (.api _ _) .api fun _ _ _ h => ?_
    unfold check2 at h
    simp only [ho, hp, if_true, Bool.false_eq_true, if_false] at h
    exact after_useAll h
  | inplace op => exact inp (.api _ _) .api fun _ _ _ h => h
  | ipow => exact inp (.callIpow _ _) .api fun _ _ _ h => h
  | pow hp =>
    rename_i fuel y md
    refine std (fuel := fuel) (f := api E .power ([E.wrapped self, y] ++ md.toList)) (.api _ _) .api fun _ _ _ h => ?_
    unfold proxyPow at h
    simp only [hp, if_true] at h
    exact after_useAll h
  | rpow ho hp =>
    rename_i fuel y md
    refine std (fuel := fuel) (f := api E .power ([y, E.wrapped self] ++ md.toList)) (.api _ _) .api fun _ _ _ h => ?_
    unfold proxyPow at h
    simp only [ho, hp, if_true, Bool.false_eq_true, if_false] at h
    exact after_useAll h
  | pow3 h1 h2 hp =>
    rename_i fuel x y
    refine std (fuel := fuel) (f := api E .power [x, y, E.wrapped self]) (.api _ _) .api fun _ _ _ h => ?_
    unfold proxyPow at h
    simp only [h1, h2, hp, if_true, Bool.false_eq_true, if_false] at h
    exact after_useAll h
  | text op hop => exact ⟨_, _, fun _ _ _ h => h, .api _ _, .bind .clearErr fun _ => .defaultRepr _, .api⟩

theorem opens_int {x : C Int} {self : Nat} {meth : String} {name : Nat} {u : UserFn} {args : List Nat}
    (hc : CheckedInt E x self meth name u args) : Opens E x self meth name u args := by
  have key : ∀ {self : Nat} {meth : String} {name : Nat} {u : UserFn} {args : List Nat} {x : C Int},
      (∀ m a m', x m = .ok a m' → (check E self meth name >>= fun i => if 0 ≤ i then callInt E .int (.user u) args
        else pure (-1)) m = .ok a m') → Opens E x self meth name u args :=
    fun h => ⟨_, _, h, .callInt _ _ _, .pure _, .of_leaves fun m => .callInt fun e r => ⟨e, r, by simp⟩⟩
  cases hc <;> exact key fun _ _ _ h => h

/-- A check that the model passes is passed, and the call is made. -/
theorem opens_made (F : Fits E I) {α : Type} {x : C α} {self name a i : Nat} {meth t : String} {w c : Val} {k : CheckKind}
    {u : UserFn} {args : List Nat} (ho : Opens E x self meth name u args) (hp : I.val self = .proxy i w c)
    (hn : I.val name = .str a t) (hk : kindOf meth = some k) {m m' : Mem} {s s' : St A} (hf : Fields E I m s)
    (hok : (chkCheck I.X (hasattrX I.X) k c w t s).1 = .ok ()) {r : α} (hx : x m = .ok r m') {l : List Ask}
    (hl : m'.asked = l.reverse ++ m.asked) (hs : Explains E I s l s') : ∃ e r', ⟨.user u, args, e, r'⟩ ∈ l := by
  obtain ⟨y, z, hxy, hly, hlz, hmk⟩ := ho
  have h := hxy m r m' hx
  rw [bind_run] at h
  cases hc : check E self meth name m with
  | fault f m1 => rw [hc] at h; cases h
  | diverge => rw [hc] at h; cases h
  | ok j m1 =>
    rw [hc] at h
    obtain ⟨l1, hl1⟩ := (Along.check (T := Longer) self meth name) m j m1 hc
    obtain ⟨l2, hl2⟩ : ∃ l2, m'.asked = l2 ++ m1.asked := by
      have h' : (if 0 ≤ j then y else z) m1 = .ok r m' := h
      split at h'
      · exact hly m1 r m' h'
      · exact hlz m1 r m' h'
    have hll : l = l1.reverse ++ l2.reverse := by
      rw [hl2, hl1, ← List.append_assoc] at hl
      have := List.append_cancel_right hl
      rw [← List.reverse_append, this, List.reverse_reverse]
    rw [hll] at hs
    obtain ⟨s1, hs1, -⟩ := explains_append hs
    obtain ⟨res, g1, g2⟩ := wp_check ⟨F, hp⟩ hn hk hf j m1 l1 s1 hc hl1 hs1
    have g1 : chkCheck I.X (hasattrX I.X) k c w t s = (res, s1) := g1
    rw [g1] at hok
    simp only at hok
    subst hok
    have g2 : 0 ≤ j := g2
    have h' : (if 0 ≤ j then y else z) m1 = .ok r m' := h
    rw [if_pos g2] at h'
    obtain ⟨l3, e, r', h4, h5⟩ := hmk m1 r m' h'
    rw [hl2] at h4
    refine ⟨e, r', ?_⟩
    rw [hll]
    exact List.mem_append_right _ (List.mem_reverse.2 (List.append_cancel_right h4 ▸ h5))

/-- The code asks for the index as an object, and with that begins with the check. -/
def OpensAt {α : Type} (E : Env) (i : Int) (x : C α) (self : Nat) (name : Nat) (u : UserFn) (args : Nat → List Nat) : Prop :=
  ∃ (k : Nat → C α) (b : α), (∀ o, Opens E (k o) self "check" name u (args o)) ∧ (∀ o, Along Longer (k o)) ∧ x = (do
    let key ← callObj E .api (.fromLong i) []
    match key with
    | .none => pure b
    | some key => do
      let res ← k key
      decref E key
      pure res)

theorem opens_at {α : Type} {i : Int} {x : C α} {self : Nat} {name : Nat} {u : UserFn} {args : Nat → List Nat}
    (hc : CheckedAt E i x self name u args) : OpensAt E i x self name u args := by
  cases hc with
  | get =>
    exact ⟨proxyGetitem E _ self, .none, fun o => opens_obj .getitem (by simp), fun _ => .proxyGetitem _ _ _, rfl⟩
  | set =>
    exact ⟨fun o => proxySetitem E self o (some _), -1, fun o => opens_int .setitem, fun _ => .proxySetitem _ _ _, rfl⟩
  | del =>
    exact ⟨fun o => proxySetitem E self o .none, -1, fun o => opens_int .delitem, fun _ => .proxySetitem _ _ _, rfl⟩

theorem opensAt_made (F : Fits E I) {α : Type} {x : C α} {self name a i : Nat} {t : String} {w c : Val} {ix : Int}
    {u : UserFn} {args : Nat → List Nat} (ho : OpensAt E ix x self name u args) (hp : I.val self = .proxy i w c)
    (hn : I.val name = .str a t) {m m' : Mem} {s s' : St A} (hf : Fields E I m s)
    (hok : (chkCheck I.X (hasattrX I.X) .check c w t s).1 = .ok ()) {r : α} (hx : x m = .ok r m') {l : List Ask}
    (hl : m'.asked = l.reverse ++ m.asked) (hs : Explains E I s l s') :
    ∃ k e r', I.val k = .int ix ∧ ⟨.user u, args k, e, r'⟩ ∈ l := by
  obtain ⟨k, b, hk, hkl, rfl⟩ := ho
  rw [bind_run] at hx
  cases hc : callObj E .api (.fromLong ix) [] m with
  | fault f m1 => rw [hc] at hx; cases hx
  | diverge => rw [hc] at hx; cases hx
  | ok key m1 =>
    rw [hc] at hx
    have h1 : Leaves (callObj E .api (.fromLong ix) []) m fun p l => ∃ e r, l = [⟨.fromLong ix, [], e, r⟩] ∧
        p = if r.null then .none else some r.obj :=
      .callObj (fun e r h => ⟨e, r, rfl, by simp [h]⟩) fun e r h => ⟨e, r, rfl, by simp [h]⟩
    obtain ⟨-, l1, hl1, e1, r1, rfl, hkey⟩ := h1 key m1 hc
    have hm1 : Fields E I m1 s := ((Along.callObj (T := Intact) _ _ _) m key m1 hc).fields hf
    have fin : ∀ {o : Nat} {y : α} {m2 : Mem}, k o m1 = .ok y m2 → (∃ l3, m'.asked = l3 ++ m2.asked) → r1.obj = o →
        r1.null = false → ∃ k e r', I.val k = .int ix ∧ ⟨.user u, args k, e, r'⟩ ∈ l := by
      intro o y m2 hko hl3 hro hnull
      obtain ⟨l2, hl2⟩ := hkl o m1 y m2 hko
      obtain ⟨l3, hl3⟩ := hl3
      have hll : l = ⟨.fromLong ix, [], e1, r1⟩ :: (l2.reverse ++ l3.reverse) := by
        have h2 : (l3 ++ l2 ++ [⟨.fromLong ix, [], e1, r1⟩]) ++ m.asked = l.reverse ++ m.asked := by
          rw [← hl, hl3, hl2, hl1]; simp
        have h3 := List.append_cancel_right h2
        rw [← List.reverse_reverse l, ← h3]
        simp
      rw [hll] at hs
      obtain ⟨s1, h8, h9⟩ := explains_cons hs
      simp only [Explained] at h8
      obtain ⟨rfl, -, h8⟩ := h8
      obtain ⟨s2, h9, -⟩ := explains_append h9
      obtain ⟨e, r', h10⟩ := opens_made F (hk o) hp hn rfl hm1 hok hko (l := l2.reverse) (by rw [List.reverse_reverse]; exact hl2) h9
      refine ⟨o, e, r', hro ▸ h8, ?_⟩
      rw [hll]
      simp [List.mem_reverse.1 h10]
    cases hnull : r1.null with
    | true =>
      rw [hnull] at hkey
      simp only [if_true] at hkey
      subst hkey
      cases hx
      have hll : l = [⟨.fromLong ix, [], e1, r1⟩] := by
        rw [hl1] at hl
        rw [← List.reverse_reverse l, ← List.append_cancel_right hl]
        rfl
      rw [hll] at hs
      obtain ⟨s1, h8, -⟩ := explains_cons hs
      simp only [Explained] at h8
      rw [hnull] at h8
      cases h8.2.1
    | false =>
      rw [hnull] at hkey
      simp only [Bool.false_eq_true, if_false] at hkey
      subst hkey
      have hx' : (k r1.obj >>= fun res => decref E r1.obj >>= fun _ => pure res) m1 = .ok r m' := hx
      rw [bind_run] at hx'
      cases hko : k r1.obj m1 with
      | fault f m1 => rw [hko] at hx'; cases hx'
      | diverge => rw [hko] at hx'; cases hx'
      | ok y m2 =>
        rw [hko] at hx'
        have : Along Longer (decref E r1.obj >>= fun _ => (pure y : C α)) := .bind (.decref _) fun _ => .pure _
        exact fin hko (this m2 r m' hx') rfl hnull

/-! ## What the slots do -/

/-- The function carries out what the operation stands for, after the check that the operation needs; or it is one
of the unchecked operations. -/
inductive Meets {α : Type} (E : Env) (I : Interp A) (p : Nat) (op : POp) (x : C α) : Prop
  | checked {q self meth name a u l} : need .c (I.val p) op = some q → I.val self = q.actor → kindOf meth = some q.kind →
      I.val name = .str a q.name → rawOf E I u l = some (q.carry (I.val (E.wrapped self))) → Mediated E x self meth name u l → Opens E x self meth name u l →
      Meets E I p op x
  | indexed {q self name a u i} {l : Nat → List Nat} : need .c (I.val p) op = some q → I.val self = q.actor → q.kind = .check →
      I.val name = .str a q.name → (∀ k, I.val k = .int i → rawOf E I u (l k) = some (q.carry (I.val (E.wrapped self)))) →
      MediatedAt E i x self name u l → OpensAt E i x self name u l →
      Meets E I p op x
  | free {u l ro} : need .c (I.val p) op = none → rawOf E I u l = some ro → Free .c (I.val (E.wrapped p)) op ro → Direct x u l →
      Meets E I p op x

theorem slot_meets (F : Fits E I) {p i : Nat} {w c : Val} (hp : I.val p = .proxy i w c) {op : POp} {x : C Ptr}
    (h : ObjSlot E I p x op) : Meets E I p op x := by
  have hip : E.isProxy p = true := by rw [F.isProxy, hp]; rfl
  have hpv : (I.val p).isProxy = true := by rw [hp]; rfl
  cases h with
  | getattr inside hf hn => exact .checked rfl rfl rfl hn (by simp [rawOf, name_str hn]) (C64_objects .getattr) (opens_obj .getattr (by simp))
  | unary u hf hu =>
    simp only [List.mem_cons, List.not_mem_nil, or_false] at hu
    rcases hu with rfl | rfl | rfl | rfl <;>
      exact .checked rfl rfl rfl (F.const _) rfl (C64_objects (.unary _ (by decide))) (opens_obj (.unary _ (by decide)) (by simp [UnName.op]))
  | number u hf hu hn =>
    simp only [List.mem_cons, List.not_mem_nil, or_false] at hu
    rcases hu with rfl | rfl <;>
      exact .checked rfl rfl rfl (F.const _) rfl (C64_objects (.number _ (by decide))) (opens_obj (.number _ (by decide)) fun _ => hn)
  | call hf => exact .checked rfl rfl rfl (F.const _) rfl (C64_objects .call) (opens_obj .call (by simp))
  | getitem hf => exact .checked rfl rfl rfl (F.const _) rfl (C64_objects .getitem) (opens_obj .getitem (by simp))
  | igetitem hf => exact .indexed rfl rfl rfl (F.const _) (fun k hk => by simp [rawOf, hk]) (C64_index .get) (opens_at .get)
  | iter hf => exact .checked rfl rfl rfl (F.const _) rfl (C64_objects .iter) (opens_obj .iter (by simp))
  | next hf => exact .checked rfl rfl rfl (F.const _) rfl (C64_objects .next) (opens_obj .next (by simp))
  | @binL _ o b hf =>
    cases b <;> exact .checked rfl rfl rfl (F.const _) rfl (C64_objects (.binL _ _ hip)) (opens_obj (.binL _ _ hip) (by simp))
  | @binR _ o b hf =>
    cases ho : E.isProxy o with
    | true =>
      have hov : (I.val o).isProxy = true := by rw [← F.isProxy, ho]
      cases b <;> exact .checked (if_pos hov) rfl rfl (F.const _) rfl (C64_objects (.binL _ _ ho)) (opens_obj (.binL _ _ ho) (by simp))
    | false =>
      have hov : (I.val o).isProxy = false := by rw [← F.isProxy, ho]
      cases b <;> exact .checked (if_neg (ne_true_of_eq_false hov)) rfl rfl (F.const _) rfl (C64_objects (.binR _ _ ho hip)) (opens_obj (.binR _ _ ho hip) (by simp))
  | @pow _ y md hf => cases md <;> exact .checked rfl rfl rfl (F.const _) rfl (C64_objects (.pow hip)) (opens_obj (.pow hip) (by simp))
  | @rpow _ o md hf =>
    cases ho : E.isProxy o with
    | true =>
      have hov : (I.val o).isProxy = true := by rw [← F.isProxy, ho]
      cases md <;> exact .checked (if_pos hov) rfl rfl (F.const _) rfl (C64_objects (.pow ho)) (opens_obj (.pow ho) (by simp))
    | false =>
      have hov : (I.val o).isProxy = false := by rw [← F.isProxy, ho]
      cases md <;> exact .checked (if_neg (ne_true_of_eq_false hov)) rfl rfl (F.const _) rfl (C64_objects (.rpow ho hip)) (opens_obj (.rpow ho hip) (by simp))
  | @pow3 _ a b hf =>
    cases ha : E.isProxy a with
    | true =>
      have hav : (I.val a).isProxy = true := by rw [← F.isProxy, ha]
      exact .checked (if_pos hav) rfl rfl (F.const _) rfl (C64_objects (.pow ha)) (opens_obj (.pow ha) (by simp))
    | false =>
      have hav : (I.val a).isProxy = false := by rw [← F.isProxy, ha]
      cases hb : E.isProxy b with
      | true =>
        have hbv : (I.val b).isProxy = true := by rw [← F.isProxy, hb]
        exact .checked ((if_neg (ne_true_of_eq_false hav)).trans (if_pos hbv)) rfl rfl (F.const _) rfl (C64_objects (.rpow ha hb)) (opens_obj (.rpow ha hb) (by simp))
      | false =>
        have hbv : (I.val b).isProxy = false := by rw [← F.isProxy, hb]
        exact .checked ((if_neg (ne_true_of_eq_false hav)).trans (if_neg (ne_true_of_eq_false hbv))) rfl rfl (F.const _) rfl (C64_objects (.pow3 ha hb hip)) (opens_obj (.pow3 ha hb hip) (by simp))
  | inplace b hf hb => cases b <;> exact .checked rfl rfl rfl (F.const _) rfl (C64_objects (.inplace _)) (opens_obj (.inplace _) (by simp))
  | ipow hf => exact .checked rfl rfl rfl (F.const _) (by simp [rawOf]; rfl) (C64_objects .ipow) (opens_obj .ipow (by simp))
  | compare b hf => exact .free rfl rfl (by cases b <;> rfl) (C64_unchecked (.compare _))
  | lengthHint => exact .free rfl rfl rfl (C64_unchecked .lengthHint)
  | str => exact .checked rfl rfl rfl (F.const _) rfl (C64_objects (.text _ (by decide))) (opens_obj (.text _ (by decide)) (by simp))
  | repr => exact .checked rfl rfl rfl (F.const _) rfl (C64_objects (.text _ (by decide))) (opens_obj (.text _ (by decide)) (by simp))

theorem intSlot_meets (F : Fits E I) {p : Nat} {op : POp} {x : C Int}
    (h : IntSlot E I p x op) : Meets E I p op x := by
  cases h with
  | setattr hn => exact .checked rfl rfl rfl hn (by simp [rawOf, name_str hn]) (C64_ints .setattr) (opens_int .setattr)
  | delattr hn => exact .checked rfl rfl rfl hn (by simp [rawOf, name_str hn]) (C64_ints .delattr) (opens_int .delattr)
  | setitem => exact .checked rfl rfl rfl (F.const _) rfl (C64_ints .setitem) (opens_int .setitem)
  | delitem => exact .checked rfl rfl rfl (F.const _) rfl (C64_ints .delitem) (opens_int .delitem)
  | isetitem => exact .indexed rfl rfl rfl (F.const _) (fun k hk => by simp [rawOf, hk]) (C64_index .set) (opens_at .set)
  | idelitem => exact .indexed rfl rfl rfl (F.const _) (fun k hk => by simp [rawOf, hk]) (C64_index .del) (opens_at .del)
  | contains => exact .checked rfl rfl rfl (F.const _) rfl (C64_ints .contains) (opens_int .contains)
  | len => exact .checked rfl rfl rfl (F.const _) rfl (C64_ints .len) (opens_int .len)
  | hash => exact .free rfl rfl rfl (C64_unchecked .hash)
  | bool => exact .free rfl rfl rfl (C64_unchecked .bool)

/-! ## One call -/

/-- Where in the list the call for the user is. -/
theorem user_unique {l pre post pre' post' : List Ask} {k k' : Ask} {u : UserFn} (h : l = pre ++ k :: post)
    (h' : l = pre' ++ k' :: post') (hk : k.fn = .user u) (h1 : NoUser pre') (h2 : NoUser post') : pre = pre' ∧ k = k' := by
  subst h
  have hu : k.isUser = true := by simp [Ask.isUser, hk]
  induction pre' generalizing pre with
  | nil =>
    cases pre with
    | nil => simp only [List.nil_append, List.cons.injEq] at h'; exact ⟨rfl, h'.1⟩
    | cons a pre =>
      simp only [List.nil_append, List.cons_append, List.cons.injEq] at h'
      have := h2 k (by rw [← h'.2]; simp)
      rw [hu] at this
      cases this
  | cons b pre' ih =>
    cases pre with
    | nil =>
      simp only [List.nil_append, List.cons_append, List.cons.injEq] at h'
      have := h1 k (by rw [h'.1]; simp)
      rw [hu] at this
      cases this
    | cons a pre =>
      simp only [List.cons_append, List.cons.injEq] at h'
      obtain ⟨h3, h4⟩ := ih (fun a ha => h1 a (by simp [ha])) h'.2
      exact ⟨by rw [h'.1, h3], h4⟩

theorem noUser_absurd {l pre post : List Ask} {k : Ask} {u : UserFn} (h : l = pre ++ k :: post) (hn : NoUser l)
    (hk : k.fn = .user u) : False := by
  have := hn k (by rw [h]; simp)
  simp [Ask.isUser, hk] at this

/-- What a function that meets its operation carries out is permitted. -/
theorem meets_permitted {X : Ext} {s0 : St A} (hE : Stock X s0) (F : Fits E I) {m m' : Mem} {s : St A} (hs : Same0 s0 s)
    (hf : Fields E I m s) {p i : Nat} {w c : Val} (hp : I.val p = .proxy i w c) {op : POp}
    (hi : Issued I.X.W s0.reg (I.val p)) (ha : ∀ v ∈ opArgs op, Issued I.X.W s0.reg v) {α : Type} {x : C α} {r : α}
    (hm : Meets E I p op x) (hx : x m = .ok r m') {l : List Ask} (hl : m'.asked = l.reverse ++ m.asked) :
    OnlyPermitted E I (storeOf s0) s p op l := by
  intro pre k post hpk s' hs' u hu
  have eql : ∀ l', m'.asked = l'.reverse ++ m.asked → l' = l := by
    intro l' h'
    rw [hl] at h'
    exact (List.reverse_inj.1 (List.append_cancel_right h')).symm
  have core : ∀ {q self name a meth pre1 s1}, need .c (I.val p) op = some q → I.val self = q.actor → kindOf meth = some q.kind →
      I.val name = .str a q.name → Passes E m self meth name pre1 → Explains E I s pre1 s1 →
      Permitted I.X (storeOf s0) s (I.val p) op (q.carry (I.val (E.wrapped self))) := by
    intro q self name a meth pre1 s1 hq hself hk hn hpass hex
    have hiq : Issued I.X.W s0.reg q.actor := by
      rcases need_actor_mem _ _ _ hq with h | h
      · rw [h]; exact hi
      · exact ha _ h
    obtain ⟨j, w', c', hact⟩ := need_actor _ (I.val p) ⟨_, _, _, hp⟩ op q hq
    obtain ⟨hw', hass⟩ := hiq _ _ _ hact
    obtain ⟨ci, g, st, rfl, -, -⟩ := assigned_dicts hE hass
    have hv := hself.trans hact
    have hchk := passes_check F hf hv hn hk hpass hex
    have hper := check_permits F.impl hE hs hw' hass q.kind q.name hchk
    unfold Permitted
    rw [hq]
    exact ⟨j, w', _, hact, by rw [F.wrapped _ _ _ _ hv], hper⟩
  cases hm with
  | @checked q self meth name a u' args hq hself hk hn hraw hmed _ =>
    obtain ⟨l', h1, h2⟩ := hmed m r m' hx
    cases eql l' h1
    rcases h2 with h2 | ⟨pre', e, r', post', h3, h4, h5, h6⟩
    · exact (noUser_absurd hpk h2 hu).elim
    · obtain ⟨rfl, rfl⟩ := user_unique hpk h3 hu h5 h6
      cases hu
      exact ⟨_, hraw, core hq hself hk hn h4 hs'⟩
  | @indexed q self name a u' i' args hq hself hk hn hraw hmed _ =>
    obtain ⟨l', h1, h2⟩ := hmed m r m' hx
    cases eql l' h1
    rcases h2 with h2 | ⟨e0, ik, pre', e, r', post', h3, h3', h4, h5, h6⟩
    · exact (noUser_absurd hpk h2 hu).elim
    · have h7 : NoUser (⟨.fromLong i', [], e0, ik⟩ :: pre') := by
        intro a ha
        rcases List.mem_cons.1 ha with rfl | ha
        · rfl
        · exact h5 a ha
      obtain ⟨rfl, rfl⟩ := user_unique hpk h3 hu h7 h6
      cases hu
      obtain ⟨s1, h8, h9⟩ := explains_cons hs'
      simp only [Explained] at h8
      obtain ⟨rfl, -, h8⟩ := h8
      refine ⟨_, hraw _ h8, core hq hself (meth := "check") ?_ hn h4 h9⟩
      rw [hk]; rfl
  | @free u' args ro hq hraw hfree hd =>
    obtain ⟨r', e, post', h1, h2⟩ := hd m r m' hx
    have h3 := eql _ h1
    obtain ⟨rfl, rfl⟩ := user_unique hpk h3.symm hu (pre' := []) .nil h2
    cases hu
    refine ⟨ro, hraw, ?_⟩
    unfold Permitted
    rw [hq]
    exact ⟨i, w, c, hp, by rw [← F.wrapped _ _ _ _ hp]; exact hfree⟩

/-- What the declarations permit is carried out by a function that meets the operation. -/
theorem meets_carried {X : Ext} {s0 : St A} (hE : Stock X s0) (F : Fits E I) {m m' : Mem} {s s' : St A} (hs : Same0 s0 s)
    (hf : Fields E I m s) {p i : Nat} {w c : Val} (hp : I.val p = .proxy i w c) {op : POp}
    (hi : Issued I.X.W s0.reg (I.val p)) (ha : ∀ v ∈ opArgs op, Issued I.X.W s0.reg v) {α : Type} {x : C α} {r : α}
    (hm : Meets E I p op x) (hx : x m = .ok r m') {l : List Ask} (hl : m'.asked = l.reverse ++ m.asked)
    (hex : Explains E I s l s') {ro : RawOp} (hper : Permitted I.X (storeOf s0) s (I.val p) op ro) : CarriedOut E I ro l := by
  have core : ∀ {q self}, need .c (I.val p) op = some q → I.val self = q.actor → ∃ j w' c', I.val self = .proxy j w' c' ∧
      ro = q.carry (I.val (E.wrapped self)) ∧ (chkCheck I.X (hasattrX I.X) q.kind c' w' q.name s).1 = .ok () := by
    intro q self hq hself
    unfold Permitted at hper
    rw [hq] at hper
    obtain ⟨j, w', c', hact, hro, hp'⟩ := hper
    have hiq : Issued I.X.W s0.reg q.actor := by
      rcases need_actor_mem _ _ _ hq with h | h
      · rw [h]; exact hi
      · exact ha _ h
    obtain ⟨hw', hass⟩ := hiq _ _ _ hact
    obtain ⟨ci, g, st, rfl, -, -⟩ := assigned_dicts hE hass
    have hv := hself.trans hact
    exact ⟨j, w', _, hv, by rw [F.wrapped _ _ _ _ hv]; exact hro, permits_check F.impl hE hs hw' hass q.kind q.name hp'⟩
  cases hm with
  | @checked q self meth name a u' args hq hself hk hn hraw _ ho =>
    obtain ⟨j, w', c', hv, rfl, hok⟩ := core hq hself
    obtain ⟨e, r', h⟩ := opens_made F ho hv hn hk hf hok hx hl hex
    exact ⟨_, h, u', rfl, hraw⟩
  | @indexed q self name a u' i' args hq hself hk hn hraw _ ho =>
    obtain ⟨j, w', c', hv, rfl, hok⟩ := core hq hself
    rw [hk] at hok
    obtain ⟨k, e, r', h1, h2⟩ := opensAt_made F ho hv hn hf hok hx hl hex
    exact ⟨_, h2, u', rfl, hraw k h1⟩
  | @free u' args ro' hq hraw hfree hd =>
    unfold Permitted at hper
    rw [hq] at hper
    obtain ⟨j, w', c', hv, hfree'⟩ := hper
    obtain ⟨rfl, rfl, rfl⟩ : i = j ∧ w = w' ∧ c = c' := by rw [hp] at hv; simpa using hv
    rw [F.wrapped _ _ _ _ hp] at hfree
    have hro : ro = ro' := by
      cases op <;> first | exact hfree'.trans hfree.symm | exact nomatch hfree.1 | cases hfree
    obtain ⟨r', e, post', h1, -⟩ := hd m r m' hx
    rw [hl] at h1
    have h2 := List.reverse_inj.1 (List.append_cancel_right h1)
    exact ⟨⟨.user u', args, e, r'⟩, by rw [h2]; simp, u', rfl, hro ▸ hraw⟩

/-! ## Sessions -/

theorem slot_intact {p : Nat} {x : C Ptr} {op : POp} (h : ObjSlot E I p x op) : Along Intact x := by
  cases h with
  | getattr => exact .proxyGetattro _ _ _
  | unary => exact .check1 _ _ _ fun _ => .api _ _
  | number => exact .check1 _ _ _ fun _ => .callNumber _ _
  | call => unfold proxyCall; exact .check1 _ _ _ fun _ => .api _ _
  | getitem => exact .proxyGetitem _ _ _
  | igetitem => exact .proxyIgetitem _ _ _
  | iter => unfold proxyIter; exact .check1 _ _ _ fun _ => .api _ _
  | next => exact .proxyIternext _ _
  | binL => exact .check2 _ _ _ _ _ fun _ _ => .api _ _
  | binR => exact .check2 _ _ _ _ _ fun _ _ => .api _ _
  | pow => exact .proxyPow _ _ _ _
  | rpow => exact .proxyPow _ _ _ _
  | pow3 => exact .proxyPow _ _ _ _
  | inplace => exact .check2i _ _ _ _ fun _ _ => .api _ _
  | ipow => exact .check2i _ _ _ _ fun _ _ => .callIpow _ _
  | compare => exact .proxyRichcompare _ _ _ _
  | lengthHint => exact .proxyLengthHint _
  | str => exact .proxyText _ _
  | repr => exact .proxyText _ _

theorem intSlot_intact {p : Nat} {x : C Int} {op : POp} (h : IntSlot E I p x op) : Along Intact x := by
  cases h with
  | setattr => exact .proxySetattro _ _ _
  | delattr => exact .proxySetattro _ _ _
  | setitem => exact .proxySetitem _ _ _
  | delitem => exact .proxySetitem _ _ _
  | isetitem => exact .proxyIsetitem _ _ _
  | idelitem => exact .proxyIsetitem _ _ _
  | contains => exact .proxyContains _ _
  | len => exact .proxyLength _
  | hash => exact .proxyHash _
  | bool => exact .proxyBool _

theorem fields_same {m m' : Mem} {s s' : St A} (hd : s'.dicts = s.dicts) (hm : Intact m m') (h : Fields E I m s) :
    Fields E I m' s' := by
  intro c g st hc
  have := hm.fields h c g st hc
  refine ⟨?_, ?_⟩
  · have h1 := this.1
    cases hp : m'.getperms c with
    | some d => rw [hp] at h1; exact h1
    | none => rw [hp] at h1; show s'.dicts g = []; rw [hd]; exact h1
  · have h1 := this.2
    cases hp : m'.setperms c with
    | some d => rw [hp] at h1; exact h1
    | none => rw [hp] at h1; show s'.dicts st = []; rw [hd]; exact h1

/-- A session at the level of the machine is a session of the model, and the memory represents the state throughout. -/
theorem session_of {X : Ext} {s0 : St A} (hE : Stock X s0) (F : Fits E I) (hX : Relies I.X.W s0) {base : TSlot → Option β}
    {m m' : Mem} {s s' : St A} {held held' : List Nat} (hst : Same0 s0 s) (hh : ∀ o ∈ held, Issued I.X.W s0.reg (I.val o))
    (hf : Fields E I m s) (h : Sessions E I base (m, s, held) (m', s', held')) :
    ∃ hv, Session I.X (s, held.map I.val) (s', hv) ∧ (∀ o ∈ held', I.val o ∈ hv) ∧ Fields E I m' s' := by
  generalize ha : (m, s, held) = a at h
  generalize hb : (m', s', held') = b at h
  induction h generalizing m' s' held' with
  | nil =>
    subst ha
    cases hb
    exact ⟨_, .nil, fun o ho => List.mem_map_of_mem ho, hf⟩
  | @cons b c _ hstep ih =>
    subst hb
    obtain ⟨mb, sb, hb⟩ := b
    obtain ⟨hv, h1, h2, h3⟩ := ih rfl
    have hh' : ∀ v ∈ held.map I.val, Issued I.X.W s0.reg v := by
      intro v hv
      obtain ⟨o, ho, rfl⟩ := List.mem_map.1 hv
      exact hh o ho
    have same : ∀ {hv' : List Val}, Session I.X (s, held.map I.val) (s', hv') → s'.dicts = sb.dicts := by
      intro hv' h'
      have k1 := (session_issued F.impl hE hX hst hh' h').1
      have k2 := (session_issued F.impl hE hX hst hh' h1).1
      exact congrArg (·.2.1) (k1.trans k2.symm)
    have held_ok : ∀ {op : POp}, HeldVals I hb (opArgs op) → ∀ v ∈ opArgs op, v ∈ hv := by
      intro op h v hv'
      obtain ⟨o, ho, rfl⟩ := h v hv'
      exact h2 o ho
    have obj : ∀ {p op} {x : C Ptr} {r : Ptr} {l : List Ask}, p ∈ hb → IsProxy (I.val p) → ObjSlot E I p x op →
        HeldVals I hb (opArgs op) → x mb = .ok r m' → m'.asked = l.reverse ++ mb.asked → Explains E I sb l s' →
        ∃ hv', Session I.X (s, held.map I.val) (s', hv') ∧ (∀ o ∈ r.toList ++ hb, I.val o ∈ hv') ∧ Fields E I m' s' := by
      intro p op x r l hp hpp hsl harg hx hl hex
      obtain ⟨i, w, c, hpv⟩ := hpp
      obtain ⟨l', hl', hr⟩ := C63_objects F hpv hsl mb sb r m' h3 hx
      have hl2 : l'.reverse = l := by
        rw [hl] at hl'
        rw [← List.append_cancel_right hl', List.reverse_reverse]
      obtain ⟨k1, k2⟩ := hr s' (by rw [hl2]; exact hex)
      rcases hrun : pop I.X (I.val p) op sb with ⟨res, s1⟩
      rw [hrun] at k1 k2
      simp only at k1
      subst k1
      cases res with
      | diverge => cases k2
      | err e =>
        have hses := Session.cons h1 (.raises (h2 p hp) (held_ok harg) hrun)
        refine ⟨_, hses, ?_, fields_same (same hses) (slot_intact hsl _ _ _ hx) h3⟩
        intro o ho
        rw [k2.1] at ho
        exact h2 o ho
      | ok v =>
        have hses := Session.cons h1 (.returns (h2 p hp) (held_ok harg) hrun)
        refine ⟨_, hses, ?_, fields_same (same hses) (slot_intact hsl _ _ _ hx) h3⟩
        obtain ⟨o', ho', hv'⟩ := k2
        subst ho'
        intro o ho
        rcases List.mem_cons.1 ho with rfl | ho
        · rw [hv']; exact List.mem_cons_self
        · exact List.mem_cons_of_mem _ (h2 o ho)
    cases hstep with
    | object hp hpp hask harg hfuel hrdy hrunx hx hl hex => exact obj hp hpp (asks_slot base hask hfuel hrdy hrunx) harg hx hl hex
    | method hp hpp hlook hrunx hx hl hex =>
      cases hlook
      cases hrunx
      exact obj hp hpp .lengthHint (fun v hv => by cases hv) hx hl hex
    | @int _ _ _ _ _ p op sl args f x r l hp hpp hask harg hrdy hrunx hx hl hex =>
      have hsl := asksInt_slot base hask hrdy hrunx
      obtain ⟨i, w, c, hpv⟩ := hpp
      obtain ⟨l', hl', hr⟩ := C63_ints F hpv hsl mb sb r m' h3 hx
      have hl2 : l'.reverse = l := by
        rw [hl] at hl'
        rw [← List.append_cancel_right hl', List.reverse_reverse]
      obtain ⟨k1, k2⟩ := hr s' (by rw [hl2]; exact hex)
      rcases hrun : pop I.X (I.val p) op sb with ⟨res, s1⟩
      rw [hrun] at k1 k2
      simp only at k1
      subst k1
      cases res with
      | diverge => cases k2
      | err e =>
        have hses := Session.cons h1 (.raises (h2 p hp) (held_ok harg) hrun)
        exact ⟨_, hses, h2, fields_same (same hses) (intSlot_intact hsl _ _ _ hx) h3⟩
      | ok v =>
        have hses := Session.cons h1 (.returns (h2 p hp) (held_ok harg) hrun)
        exact ⟨_, hses, fun o ho => List.mem_cons_of_mem _ (h2 o ho), fields_same (same hses) (intSlot_intact hsl _ _ _ hx) h3⟩
    | @constant _ _ _ o hb' =>
      refine ⟨_, .cons h1 (.constant hb'), ?_, h3⟩
      intro o' ho'
      rcases List.mem_cons.1 ho' with rfl | ho'
      · exact List.mem_cons_self
      · exact List.mem_cons_of_mem _ (h2 o' ho')
    | elsewhere hp hf' => exact ⟨_, .cons h1 (.elsewhere hp), h2, hf'⟩

/-! ## The claims -/

/-- **C75** The package is imported, a configuration is carried out, and an application that relies on it hands out
compiled proxies made by the registry.  Untrusted code works with them through the interpreter, which calls the functions
that the finished type has in its slots, whatever the base type offers in the others.  Then every call that such a function
makes on behalf of the user is what the operation stands for, on the wrapped object, and permitted by the directives of the
configuration and the interaction; or it is one of the unchecked operations. -/
theorem C75_configured (B : Ext) (a : A) (ds : List Directive) (hr : Ready ds (initial B a))
    (hl : ∀ d ∈ ds, ∀ e, ¬ Raises d e) :
    ∃ s0, configure ds (initial B a) = (.ok (), s0) ∧ ∃ σ, Effects ds (storeOf (initial B a)) σ ∧
      (∀ τ, Effects ds (storeOf (initial B a)) τ → τ = σ) ∧
      ∀ (E : Env) (I : Interp A) (base : TSlot → Option β), Fits E I → Relies I.X.W s0 →
        ∀ m0 start held m s held', protection start = protection s0 → (∀ o ∈ held, Issued I.X.W s0.reg (I.val o)) →
          Fields E I m0 start → Sessions E I base (m0, start, held) (m, s, held') →
          ∀ p ∈ held', IsProxy (I.val p) → ∀ op, HeldVals I held' (opArgs op) →
            (∀ sl args f fuel x r m' l, Asks E I p op sl args → fuel ≤ I.X.fuel → ready proxyOwn base sl = some (.inl f) →
              runObj E fuel f args = some x → x m = .ok r m' → m'.asked = l.reverse ++ m.asked → OnlyPermitted E I σ s p op l) ∧
            (∀ sl args f x r m' l, AsksInt I p op sl args → ready proxyOwn base sl = some (.inl f) →
              runInt E f args = some x → x m = .ok r m' → m'.asked = l.reverse ++ m.asked → OnlyPermitted E I σ s p op l) ∧
            ∀ f fuel x r m' l, op = .lengthHint → proxyMethods.lookup "__length_hint__" = some f →
              runObj E fuel f (.one p) = some x → x m = .ok r m' → m'.asked = l.reverse ++ m.asked → OnlyPermitted E I σ s p op l := by
  obtain ⟨s0, h1, h2, _, _⟩ := C38_effects ds (initial B a) (heap_initial B a) hr hl
  have hE : Stock B s0 := by
    have := stock_configure (E := B) ds (initial B a) (stock_initial B a)
    rwa [h1] at this
  refine ⟨s0, h1, storeOf s0, h2, fun _ h => effects_unique h h2, ?_⟩
  intro E I base F hX m0 start held m s held' hst hh hf hses p hp hpp op harg
  obtain ⟨hv, k1, k2, k3⟩ := session_of hE F hX hst hh hf hses
  have hh' : ∀ v ∈ held.map I.val, Issued I.X.W s0.reg v := by
    intro v hv
    obtain ⟨o, ho, rfl⟩ := List.mem_map.1 hv
    exact hh o ho
  obtain ⟨j1, j2⟩ := session_issued F.impl hE hX hst hh' k1
  obtain ⟨i, w, c, hpv⟩ := hpp
  have hia : ∀ v ∈ opArgs op, Issued I.X.W s0.reg v := by
    intro v hv
    obtain ⟨o, ho, rfl⟩ := harg v hv
    exact j2 _ (k2 o ho)
  have hip := j2 _ (k2 p hp)
  refine ⟨?_, ?_, ?_⟩
  · intro sl args f fuel x r m' l hask hfuel hrdy hrun hx hl
    exact meets_permitted hE F j1 k3 hpv hip hia (slot_meets F hpv (asks_slot base hask hfuel hrdy hrun)) hx hl
  · intro sl args f x r m' l hask hrdy hrun hx hl
    exact meets_permitted hE F j1 k3 hpv hip hia (intSlot_meets F (asksInt_slot base hask hrdy hrun)) hx hl
  · rintro f fuel x r m' l rfl hlook hrun hx hl
    cases hlook
    cases hrun
    exact meets_permitted hE F j1 k3 hpv hip hia (slot_meets F hpv .lengthHint) hx hl

/-- **C75** Conversely, what the directives and the interaction permit is done: if the function runs through and all its calls
are answered as the surroundings answer, the call for the user is among them. -/
theorem C75_carried_out (B : Ext) (a : A) (ds : List Directive) (hr : Ready ds (initial B a))
    (hl : ∀ d ∈ ds, ∀ e, ¬ Raises d e) :
    ∃ s0, configure ds (initial B a) = (.ok (), s0) ∧ ∃ σ, Effects ds (storeOf (initial B a)) σ ∧
      (∀ τ, Effects ds (storeOf (initial B a)) τ → τ = σ) ∧
      ∀ (E : Env) (I : Interp A) (base : TSlot → Option β), Fits E I → Relies I.X.W s0 →
        ∀ m0 start held m s held', protection start = protection s0 → (∀ o ∈ held, Issued I.X.W s0.reg (I.val o)) →
          Fields E I m0 start → Sessions E I base (m0, start, held) (m, s, held') →
          ∀ p ∈ held', IsProxy (I.val p) → ∀ op, HeldVals I held' (opArgs op) → ∀ ro, Permitted I.X σ s (I.val p) op ro →
            (∀ sl args f fuel x r m' l s', Asks E I p op sl args → fuel ≤ I.X.fuel → ready proxyOwn base sl = some (.inl f) →
              runObj E fuel f args = some x → x m = .ok r m' → m'.asked = l.reverse ++ m.asked → Explains E I s l s' → CarriedOut E I ro l) ∧
            (∀ sl args f x r m' l s', AsksInt I p op sl args → ready proxyOwn base sl = some (.inl f) →
              runInt E f args = some x → x m = .ok r m' → m'.asked = l.reverse ++ m.asked → Explains E I s l s' → CarriedOut E I ro l) ∧
            ∀ f fuel x r m' l s', op = .lengthHint → proxyMethods.lookup "__length_hint__" = some f →
              runObj E fuel f (.one p) = some x → x m = .ok r m' → m'.asked = l.reverse ++ m.asked → Explains E I s l s' → CarriedOut E I ro l := by
  obtain ⟨s0, h1, h2, _, _⟩ := C38_effects ds (initial B a) (heap_initial B a) hr hl
  have hE : Stock B s0 := by
    have := stock_configure (E := B) ds (initial B a) (stock_initial B a)
    rwa [h1] at this
  refine ⟨s0, h1, storeOf s0, h2, fun _ h => effects_unique h h2, ?_⟩
  intro E I base F hX m0 start held m s held' hst hh hf hses p hp hpp op harg ro hper
  obtain ⟨hv, k1, k2, k3⟩ := session_of hE F hX hst hh hf hses
  have hh' : ∀ v ∈ held.map I.val, Issued I.X.W s0.reg v := by
    intro v hv
    obtain ⟨o, ho, rfl⟩ := List.mem_map.1 hv
    exact hh o ho
  obtain ⟨j1, j2⟩ := session_issued F.impl hE hX hst hh' k1
  obtain ⟨i, w, c, hpv⟩ := hpp
  have hia : ∀ v ∈ opArgs op, Issued I.X.W s0.reg v := by
    intro v hv
    obtain ⟨o, ho, rfl⟩ := harg v hv
    exact j2 _ (k2 o ho)
  have hip := j2 _ (k2 p hp)
  refine ⟨?_, ?_, ?_⟩
  · intro sl args f fuel x r m' l s' hask hfuel hrdy hrun hx hl hex
    exact meets_carried hE F j1 k3 hpv hip hia (slot_meets F hpv (asks_slot base hask hfuel hrdy hrun)) hx hl hex hper
  · intro sl args f x r m' l s' hask hrdy hrun hx hl hex
    exact meets_carried hE F j1 k3 hpv hip hia (intSlot_meets F (asksInt_slot base hask hrdy hrun)) hx hl hex hper
  · rintro f fuel x r m' l s' rfl hlook hrun hx hl hex
    cases hlook
    cases hrun
    exact meets_carried hE F j1 k3 hpv hip hia (slot_meets F hpv .lengthHint) hx hl hex hper

/-- **C75** All the while untrusted code holds no proxies but those the registry's checkers guard, each around an object that is
no proxy itself, and the memory represents the state. -/
theorem C75_held (B : Ext) (a : A) (ds : List Directive) (s0 : St A) (hc : configure ds (initial B a) = (.ok (), s0))
    (E : Env) (I : Interp A) (base : TSlot → Option β) (F : Fits E I) (hX : Relies I.X.W s0) (m0 m : Mem) (start s : St A)
    (held held' : List Nat) (hst : protection start = protection s0) (hh : ∀ o ∈ held, Issued I.X.W s0.reg (I.val o))
    (hf : Fields E I m0 start) (hses : Sessions E I base (m0, start, held) (m, s, held')) :
    (∀ o ∈ held', Issued I.X.W s0.reg (I.val o)) ∧ protection s = protection s0 ∧ Fields E I m s := by
  have hE : Stock B s0 := by
    have := stock_configure (E := B) ds (initial B a) (stock_initial B a)
    rwa [hc] at this
  obtain ⟨hv, k1, k2, k3⟩ := session_of hE F hX hst hh hf hses
  have hh' : ∀ v ∈ held.map I.val, Issued I.X.W s0.reg v := by
    intro v hv
    obtain ⟨o, ho, rfl⟩ := List.mem_map.1 hv
    exact hh o ho
  obtain ⟨j1, j2⟩ := session_issued F.impl hE hX hst hh' k1
  exact ⟨fun o ho => j2 _ (k2 o ho), j1, k3⟩

end ZS.Props

/-! ## A concrete run: `secret` of the `Thing` of `Props/Deploy.lean`, for which the interaction is asked -/

namespace ZS.CM.ShopC
open ZS.Props ZS.Spec ZS.CM.Sample

noncomputable def p : Nat := num Shop.thing

noncomputable def replies : List Reply :=
  [{ obj := num Ex.view }, { obj := num (.obj 50) }, { obj := num (.bool true) }, {}, { num := 1 }, {}, { obj := num (.obj 5) },
   { null := true, obj := num (.str 0 "__Security_checker__") }, { obj := num (.checker 102 100 101) }, { obj := num Shop.inner }, {}, {}]

noncomputable abbrev E : Env := env (Ex.X .c) (answers replies)
noncomputable abbrev I : Interp Unit := interp (Ex.X .c)

noncomputable def calls : List Ask :=
  [⟨.dictGet, [num (.obj 1100), num (.str 0 "secret")], .nothing, { obj := num Ex.view }⟩,
   ⟨.getAttr, [num (.obj 902), num (.str 0 "interaction")], .nothing, { obj := num (.obj 50) }⟩,
   ⟨.callMethod, [num (.obj 50), num (.str 0 "checkPermission"), num Ex.view, num (.obj 1)], .nothing, { obj := num (.bool true) }⟩,
   ⟨.destroy, [num (.obj 50)], .nothing, {}⟩,
   ⟨.isTrue, [num (.bool true)], .nothing, { num := 1 }⟩,
   ⟨.destroy, [num (.bool true)], .nothing, {}⟩,
   ⟨.user .getAttr, [num (.obj 1), num (.str 0 "secret")], .nothing, { obj := num (.obj 5) }⟩,
   ⟨.getAttr, [num (.obj 5), num (.str 0 "__Security_checker__")], .nothing, { null := true, obj := num (.str 0 "__Security_checker__") }⟩,
   ⟨.dictGet, [num (.obj 900), num (.type "Thing")], .nothing, { obj := num (.checker 102 100 101) }⟩,
   ⟨.call, [num (.obj 903), num (.obj 5), num (.checker 102 100 101)], .nothing, { obj := num Shop.inner }⟩,
   ⟨.destroy, [num (.checker 102 100 101)], .nothing, {}⟩,
   ⟨.destroy, [num (.obj 5)], .nothing, {}⟩]

theorem run : seen (proxyGetattro E 5 p (num (.str 0 "secret")) mem) = some (some (num Shop.inner), calls) := by
  simp [proxyGetattro, check, bind, pure, env, p, Shop.thing, Shop.inner, checkInt, deref, checkNamed, loadGetperms, mem, checkerDicts, lookup, dictGet, useAll, use, alive,
     consult, answers, replies, api, callObj, gain, proxyResult, protect, Val.isChecker, checkerProxy, Val.isProxy, setErr, clearErr, CM.selectChecker, defaultChecker,
     isUnprotectedException, callInt, incref, selectLoop, makeProxy, decref, seen, calls, typeOf, Ex.X, Ex.W, Ex.view, publicV, checkPermission]

noncomputable def sA : St Unit := (ixCheckPermission (Ex.X .c) (.obj 50) Ex.view (.obj 1) Shop.now).2
noncomputable def sB : St Unit := (perform (Ex.X .c) (.getattr (.obj 1) "secret") sA).2
noncomputable def sC : St Unit := (probe (Ex.X .c) (.getattr (.obj 5) "__Security_checker__") sB).2
noncomputable def sD : St Unit := (newProxy (.obj 5) (.checker 102 100 101) sC).2

theorem explained : Explains E I Shop.now calls sD := by
  refine .cons (s1 := Shop.now) ?_ <| .cons (s1 := Shop.now) ?_ <| .cons (s1 := sA) ?_ <| .cons (s1 := sA) ?_ <|
    .cons (s1 := sA) ?_ <| .cons (s1 := sA) ?_ <| .cons (s1 := sB) ?_ <| .cons (s1 := sC) ?_ <| .cons (s1 := sC) ?_ <|
    .cons (s1 := sD) ?_ <| .cons (s1 := sD) ?_ <| .cons (s1 := sD) ?_ <| .nil _
  · simp [Explained, env, interp, Interp.name]
    rw [show (Shop.now.dicts 100).get? "secret" = some Ex.view by decide +kernel]
    exact ⟨rfl, val_num _⟩
  · simp [Explained, env, interp, Interp.name, Runs, ObjAnswer]
    exact ⟨rfl, rfl⟩
  · simp [Explained, interp, Interp.name, Runs, ObjAnswer]
    exact ⟨rfl, rfl⟩
  · rfl
  · simp [Explained, interp, TestAnswer]
    rfl
  · rfl
  · simp [Explained, rawOf, UserFn.isInt, Runs, ObjAnswer, interp, Interp.name]
    exact ⟨rfl, rfl⟩
  · simp [Explained, Runs, ObjAnswer, interp, Interp.name, env, getSC]
    exact ⟨rfl, rfl⟩
  · simp [Explained, env, interp]
    rw [show sC.reg.get? (Key.ty "Thing") = some (.checker 102 100 101) by decide +kernel]
    exact ⟨rfl, val_num _⟩
  · simp [Explained, env, interp, ObjAnswer, Runs]
    exact ⟨rfl, rfl⟩
  · rfl
  · rfl

theorem val_p : I.val p = Shop.thing := val_num _

theorem asks : Asks E I p (.getattr "secret" false) (.tp .getattro) (.two p (num (.str 0 "secret"))) := .getattr false (val_num _)

theorem slot_of (base : TSlot → Option Unit) : ready proxyOwn base (.tp .getattro) = some (.inl .getattro) := rfl

/-- Reading `secret` is a step of a session; untrusted code then also holds what it was given. -/
theorem session (base : TSlot → Option Unit) : ∃ m', Sessions E I base (mem, Shop.now, [p]) (m', sD, [num Shop.inner, p]) := by
  have hr := run
  cases ho : proxyGetattro E 5 p (num (.str 0 "secret")) mem with
  | fault f m => rw [ho] at hr; cases hr
  | diverge => rw [ho] at hr; cases hr
  | ok a m' =>
    rw [ho] at hr
    simp only [seen, Option.some.injEq, Prod.mk.injEq] at hr
    obtain ⟨rfl, hr⟩ := hr
    exact ⟨m', .cons .nil (.object (List.mem_singleton.2 rfl) ⟨_, _, _, val_p⟩ asks (fun v hv => by cases hv) (Nat.le_refl 5) (slot_of base)
      rfl ho (by rw [← hr]; simp [mem]) explained)⟩

/-- The hypotheses of `C75_configured` are met, and reading `secret` is permitted. -/
example (base : TSlot → Option Unit) : Ready Shop.config (initial Ex.ext ()) ∧ (∀ d ∈ Shop.config, ∀ e, ¬ Raises d e) ∧ Fits E I ∧
    Relies I.X.W Shop.s0 ∧ protection Shop.now = protection Shop.s0 ∧ (∀ o ∈ [p], Issued I.X.W Shop.s0.reg (I.val o)) ∧
    Fields E I mem Shop.now ∧ Sessions E I base (mem, Shop.now, [p]) (mem, Shop.now, [p]) ∧
    (∃ m', Sessions E I base (mem, Shop.now, [p]) (m', sD, [num Shop.inner, p])) ∧
    Permitted I.X (storeOf Shop.s0) Shop.now (I.val p) (.getattr "secret" false) (.getattr (.obj 1) "secret") ∧
    CarriedOut E I (.getattr (.obj 1) "secret") calls := by
  refine ⟨Shop.ready, Shop.fine, fits _ rfl _, Shop.relies _, rfl, ?_, fields _ _ _, .nil, session base, ?_, ?_⟩
  · intro o ho
    cases List.mem_singleton.1 ho
    rw [val_p]
    exact Shop.issued _ (List.mem_singleton.2 rfl)
  · rw [val_p]
    exact ⟨_, _, _, rfl, rfl, .granted (perm := Ex.view) (by decide +kernel) (by decide) rfl (.foreign (fun _ h => (nomatch h)) rfl rfl)⟩
  · refine ⟨_, List.mem_of_getElem? (i := 6) rfl, _, rfl, ?_⟩
    simp [rawOf, interp, Interp.name]

/-- `C75_held` of that session: the checker of what was handed out is the registry's. -/
example : Issued Ex.W Shop.s0.reg Shop.inner := by
  obtain ⟨m', h⟩ := session fun _ => none
  have := (C75_held Ex.ext () Shop.config Shop.s0 Shop.configured E I _ (fits _ rfl _) (Shop.relies _) mem m' Shop.now sD [p] _ rfl
    (fun o ho => by cases List.mem_singleton.1 ho; rw [val_p]; exact Shop.issued _ (List.mem_singleton.2 rfl)) (fields _ _ _) h).1
    (num Shop.inner) (List.mem_cons_self ..)
  rwa [show I.val (num Shop.inner) = Shop.inner from val_num _] at this

end ZS.CM.ShopC
