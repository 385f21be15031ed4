import Verif.Model.CCode
import Verif.Spec.CMem

/-!
# A small logic for the code of the extension modules

`Good E I B e x J B' e'`: started with (at least) the references `I`, the borrowed objects `B` and the
error indicator `e`, the code `x` ends with exactly the references `J` instead, new borrowed objects `B'`
and error indicator `e'`, or has an excuse.
-/

namespace ZS.CM

theorem ite_run {α : Type} {p : Prop} [Decidable p] (x y : C α) (m : Mem) :
    (if p then x else y) m = if p then x m else y m := by
  split <;> rfl

theorem bind_run {α β : Type} (x : C α) (k : α → C β) (m : Mem) :
    (x >>= k) m = match x m with
      | .ok a m => k a m
      | .fault f m => .fault f m
      | .diverge => .diverge := rfl

/-- One reference more. -/
def add (I : Nat → Nat) (o : Nat) : Nat → Nat := fun k => I k + if k = o then 1 else 0

def addp (I : Nat → Nat) : Ptr → Nat → Nat
  | .none => I
  | some o => add I o

/-- The object is borrowed, unless others dropped it, or is never released; for NULL: there was an
encoding error. -/
def Lent (E : Env) (m : Mem) : Ptr → Prop
  | some o => m.loose o = true ∨ Dropped m.log o ∨ 0 < leaks E m.log o
  | .none => NotEncodable m.log

/-- The pointer, unless it is NULL. -/
def lentOf : Ptr → List Ptr
  | some o => [some o]
  | .none => []

/-- The error indicator is as expected, unless an exception was mistaken for an answer, or failure is
expected and an iterator was at its end. -/
def ErrIs (log : List (Call × Reply)) (err e : Bool) : Prop := Misread log ∨ (Ended log ∧ e = true) ∨ err = e

structure Sat (E : Env) (I : Nat → Nat) (B : List Ptr) (e : Bool) (m : Mem) : Prop where
  own : ∀ o, I o + leaks E m.log o ≤ m.own o
  lent : ∀ o ∈ B, Lent E m o
  err : ErrIs m.log m.err e

structure Step (E : Env) (I : Nat → Nat) (m : Mem) (J : Nat → Nat) (B : List Ptr) (e : Bool) (m' : Mem) : Prop where
  own : ∀ o, m'.own o + I o + leaks E m.log o = m.own o + J o + leaks E m'.log o
  lent : ∀ o, Lent E m o → Lent E m' o
  new : ∀ o ∈ B, Lent E m' o
  err : ErrIs m'.log m'.err e
  log : ∃ l, m'.log = l ++ m.log

def Good (E : Env) (I : Nat → Nat) (B : List Ptr) (e : Bool) (x : C α)
    (J : α → Nat → Nat) (B' : α → List Ptr) (e' : α → Bool) : Prop :=
  ∀ m, Sat E I B e m → match x m with
    | .ok a m' => Step E I m (J a) (B' a) (e' a) m'
    | .fault f m' => Excuse m'.log f
    | .diverge => True

theorem leaks_append (E : Env) (l l' : List (Call × Reply)) (o : Nat) :
    leaks E (l ++ l') o = leaks E l o + leaks E l' o := by
  simp [leaks, List.countP_append]

theorem Dropped.append {l l' : List (Call × Reply)} {o : Nat} (h : Dropped l' o) : Dropped (l ++ l') o := by
  obtain ⟨e, he, hd⟩ := h
  exact ⟨e, List.mem_append_right _ he, hd⟩

theorem ErrIs.cons {l : List (Call × Reply)} {c : Call × Reply} {err e : Bool} (h : ErrIs l err e) : ErrIs (c :: l) err e := by
  rcases h with ⟨x, hx, hd⟩ | ⟨⟨x, hx, hd⟩, he⟩ | h
  · exact .inl ⟨x, List.mem_cons_of_mem _ hx, hd⟩
  · exact .inr (.inl ⟨⟨x, List.mem_cons_of_mem _ hx, hd⟩, he⟩)
  · exact .inr (.inr h)

theorem Step.sat {E : Env} {I J : Nat → Nat} {B B' : List Ptr} {e e' : Bool} {m m' : Mem}
    (hs : Sat E I B e m) (h : Step E I m J B' e' m') : Sat E J (B' ++ B) e' m' := by
  refine ⟨fun o => ?_, fun o ho => ?_, h.err⟩
  · obtain ⟨l, hl⟩ := h.log
    have h1 := h.own o
    have h2 := hs.own o
    omega
  · rcases List.mem_append.mp ho with ho | ho
    · exact h.new o ho
    · exact h.lent o (hs.lent o ho)

theorem Step.trans {E : Env} {I J K : Nat → Nat} {B B' : List Ptr} {e e' : Bool} {m m' m'' : Mem}
    (h : Step E I m J B e m') (h' : Step E J m' K B' e' m'') : Step E I m K B' e' m'' := by
  refine ⟨fun o => ?_, fun o ho => h'.lent o (h.lent o ho), h'.new, h'.err, ?_⟩
  · have := h.own o
    have := h'.own o
    omega
  · obtain ⟨l, hl⟩ := h.log
    obtain ⟨l', hl'⟩ := h'.log
    exact ⟨l' ++ l, by rw [hl', hl, List.append_assoc]⟩

section
variable {E : Env} {I : Nat → Nat} {B : List Ptr} {e : Bool} {α β : Type}

theorem Good.bind {x : C α} {k : α → C β} {J B' e'} {K : β → Nat → Nat} {B'' e''}
    (hx : Good E I B e x J B' e') (hk : ∀ a, Good E (J a) (B' a ++ B) (e' a) (k a) K B'' e'') :
    Good E I B e (x >>= k) K B'' e'' := by
  intro m hm
  have h1 := hx m hm
  show match (match x m with | .ok a m => k a m | .fault f m => .fault f m | .diverge => .diverge : Out β) with
    | .ok a m' => Step E I m (K a) (B'' a) (e'' a) m' | .fault f m' => Excuse m'.log f | .diverge => True
  cases hxm : x m with
  | ok a m' =>
    rw [hxm] at h1
    have h2 := hk a m' (h1.sat hm)
    simp only
    cases hkm : k a m' with
    | ok b m'' => rw [hkm] at h2; exact h1.trans h2
    | fault f m'' => rw [hkm] at h2; exact h2
    | diverge => trivial
  | fault f m' => rw [hxm] at h1; exact h1
  | diverge => trivial

theorem Good.pure (a : α) {J : α → Nat → Nat} {B' : α → List Ptr} {e' : α → Bool}
    (hJ : ∀ o, J a o = I o) (hB : ∀ o ∈ B' a, o ∈ B) (he : e' a = e) :
    Good E I B e (pure a : C α) J B' e' := by
  intro m hm
  refine ⟨fun o => by rw [hJ], fun _ h => h, fun o ho => hm.lent o (hB o ho), ?_, [], rfl⟩
  rw [he]; exact hm.err

/-- The conclusion may be stated with other descriptions of the same references. -/
theorem Good.conseq {x : C α} {J B' e' J' B'' e''} (h : Good E I B e x J B' e')
    (hJ : ∀ a o, J' a o = J a o) (hB : ∀ a, ∀ o ∈ B'' a, o ∈ B' a ++ B) (he : ∀ a, e'' a = e' a) :
    Good E I B e x J' B'' e'' := by
  intro m hm
  have h1 := h m hm
  cases hx : x m with
  | ok a m' =>
    rw [hx] at h1
    refine ⟨fun o => by rw [hJ]; exact h1.own o, h1.lent, fun o ho => ?_, by rw [he]; exact h1.err, h1.log⟩
    rcases List.mem_append.mp (hB a o ho) with ho | ho
    · exact h1.new o ho
    · exact h1.lent o (hm.lent o ho)
  | fault f m' => rw [hx] at h1; exact h1
  | diverge => trivial

/-- Fewer assumptions are needed. -/
theorem Good.weaken {x : C α} {J B' e'} {B0 : List Ptr} (h : Good E I B0 e x J B' e')
    (hB : ∀ o ∈ B0, o ∈ B) : Good E I B e x J B' e' :=
  fun m hm => h m ⟨hm.own, fun o ho => hm.lent o (hB o ho), hm.err⟩

theorem Good.ite {p : Prop} [Decidable p] {x y : C α} {J B' e'}
    (hx : p → Good E I B e x J B' e') (hy : ¬ p → Good E I B e y J B' e') :
    Good E I B e (if p then x else y) J B' e' := by
  split
  · next h => exact hx h
  · next h => exact hy h

/-- The object certainly exists. -/
def Usable (E : Env) (I : Nat → Nat) (B : List Ptr) (o : Nat) : Prop := 0 < I o ∨ E.held o = true ∨ some o ∈ B

theorem Good.use {o : Nat} (h : Usable E I B o) :
    Good E I B e (use E o) (fun _ => I) (fun _ => []) (fun _ => e) := by
  intro m hm
  unfold CM.use
  by_cases ha : alive E m o = true
  · rw [if_pos ha]
    exact ⟨fun _ => rfl, fun _ h => h, fun _ h => (by cases h), hm.err, [], rfl⟩
  · rw [if_neg ha]
    simp only [alive, Bool.or_eq_true, decide_eq_true_eq, not_or] at ha
    rcases h with h | h | h
    · have := hm.own o; omega
    · exact absurd h ha.1.2
    · rcases hm.lent _ h with h | h | h
      · exact absurd h ha.2
      · exact h
      · have := hm.own o; omega

theorem Good.useAll {l : List Nat} (h : ∀ o ∈ l, Usable E I B o) :
    Good E I B e (useAll E l) (fun _ => I) (fun _ => []) (fun _ => e) := by
  induction l with
  | nil => exact .pure _ (fun _ => rfl) (fun _ h => (by cases h)) rfl
  | cons o r ih =>
    refine .bind (.use (h o (List.mem_cons_self ..))) fun _ => ?_
    exact ih fun o ho => h o (List.mem_cons_of_mem _ ho)

theorem lent_consult {m : Mem} {k : Call} {f : Fn} {args : List Nat} {r : Reply} {o : Ptr} (h : Lent E m o) :
    Lent E { m with log := (k, r) :: m.log, asked := ⟨f, args, m.raised, r⟩ :: m.asked,
                    loose := fun o => m.loose o && !(r.drops.contains o) } o := by
  cases o with
  | none =>
    obtain ⟨e, he, hd⟩ := h
    exact ⟨e, List.mem_cons_of_mem _ he, hd⟩
  | some o =>
    rcases h with h | ⟨e, he, hd⟩ | h
    · by_cases hc : o ∈ r.drops
      · exact .inr (.inl ⟨(k, r), List.mem_cons_self .., hc⟩)
      · refine .inl ?_
        simp [h, hc]
    · exact .inr (.inl ⟨e, List.mem_cons_of_mem _ he, hd⟩)
    · refine .inr (.inr ?_)
      simp only [leaks, List.countP_cons] at h ⊢
      omega

theorem lent_loose {m : Mem} {f : Nat → Bool} {o : Ptr} (h : Lent E m o) (hf : ∀ k, m.loose k = true → f k = true) :
    Lent E { m with loose := f } o := by
  cases o with
  | none => exact h
  | some o =>
    rcases h with h | h
    · exact .inl (hf _ h)
    · exact .inr h

/-- Other code runs and what it answers is not a reference. -/
theorem Good.consult {k : Call} {f : Fn} {args : List Nat} (hk : k ≠ .asUtf8) (hk' : k ≠ .securityChecker) :
    Good E I B e (consult E k f args) (fun _ => I) (fun _ => []) (fun _ => e) := by
  intro m hm
  refine ⟨fun o => ?_, fun o h => lent_consult h, fun _ h => (by cases h), ?_, [(k, _)], rfl⟩
  · simp [leaks, leakedBy, hk, hk']
  · exact hm.err.cons

theorem Good.setErr (b : Bool) {x : Raised} :
    Good E I B e (setErr b x) (fun _ => I) (fun _ => []) (fun _ => b) :=
  fun _ _ => ⟨fun _ => rfl, fun _ h => h, fun _ h => (by cases h), .inr (.inr rfl), [], rfl⟩

theorem Good.clearErr : Good E I B e clearErr (fun _ => I) (fun _ => []) (fun _ => false) := .setErr false

theorem Good.setString {exc text : String} :
    Good E I B e (setString E exc text) (fun _ => I) (fun _ => []) (fun _ => true) := .setErr true

theorem Good.gain (o : Nat) : Good E I B e (gain o) (fun _ => add I o) (fun _ => []) (fun _ => e) := by
  intro m hm
  refine ⟨fun k => ?_, fun _ h => h, fun _ h => (by cases h), hm.err, [], rfl⟩
  simp only [add]
  split
  · next h => subst h; omega
  · omega

theorem Good.incref {o : Nat} (h : Usable E I B o) :
    Good E I B e (incref E o) (fun _ => add I o) (fun _ => []) (fun _ => e) :=
  .bind (.use h) fun _ => Good.gain (E := E) o

theorem Good.give {o : Nat} {J : Nat → Nat} (h : ∀ k, I k = add J o k) :
    Good E I B e (give o) (fun _ => J) (fun _ => []) (fun _ => e) := by
  intro m hm
  have ho := hm.own o
  have h' := h o
  simp only [add, if_pos] at h'
  unfold CM.give
  rw [if_neg (by omega)]
  refine ⟨fun k => ?_, fun _ h => h, fun _ h => (by cases h), hm.err, [], rfl⟩
  have hk := h k
  simp only [add] at hk ⊢
  split
  · next hko => subst hko; simp only [if_pos] at hk; omega
  · next hko => simp only [if_neg hko] at hk; omega

theorem Good.decref {o : Nat} {J : Nat → Nat} (h : ∀ k, I k = add J o k) :
    Good E I B e (decref E o) (fun _ => J) (fun _ => []) (fun _ => e) :=
  .bind (Good.give (E := E) h) fun _ => .bind (.consult (by decide) (by decide)) fun _ =>
    .pure _ (fun _ => rfl) (fun _ h => (by cases h)) rfl

theorem Good.xdecref {p : Ptr} {J : Nat → Nat} (h : ∀ k, I k = addp J p k) :
    Good E I B e (xdecref E p) (fun _ => J) (fun _ => []) (fun _ => e) := by
  cases p with
  | none => exact .pure _ (fun o => (h o).symm) (fun _ h => (by cases h)) rfl
  | some o => exact .decref h

/-- Calls returning a new reference. -/
theorem Good.callObj {k : Call} {f : Fn} {args : List Nat} (hk : k ≠ .asUtf8) (hk' : k ≠ .securityChecker)
    (h : ∀ o ∈ args, Usable E I B o) :
    Good E I B e (callObj E k f args) (fun p => addp I p) (fun _ => []) (fun p => p.isNone || e) := by
  refine .bind (.useAll h) fun _ => .bind (.consult hk hk') fun r => .ite (fun _ => ?_) fun _ => ?_
  · exact .bind (.setErr true) fun _ => .pure _ (fun _ => rfl) (fun _ h => (by cases h)) rfl
  · exact .bind (.gain _) fun _ => .pure _ (fun _ => rfl) (fun _ h => (by cases h)) rfl

theorem Good.api {f : Fn} {args : List Nat} (h : ∀ o ∈ args, Usable E I B o) :
    Good E I B e (CM.callObj E .api f args) (fun p => addp I p) (fun _ => []) (fun p => p.isNone || e) :=
  .callObj (by decide) (by decide) h

theorem Good.callInt {k : Call} {f : Fn} {args : List Nat} (hk : k ≠ .asUtf8) (hk' : k ≠ .securityChecker)
    (h : ∀ o ∈ args, Usable E I B o) :
    Good E I B e (callInt E k f args) (fun _ => I) (fun _ => []) (fun i => decide (i < 0) || e) := by
  refine .bind (.useAll h) fun _ => .bind (.consult hk hk') fun r => .ite (fun hr => ?_) fun hr => ?_
  · exact .bind (.setErr true) fun _ => .pure _ (fun _ => rfl) (fun _ h => (by cases h)) (by simp [hr])
  · exact .pure _ (fun _ => rfl) (fun _ h => (by cases h)) (by simp [hr])

theorem Good.callHash {o : Nat} (h : Usable E I B o) :
    Good E I B e (callHash E o) (fun _ => I) (fun _ => []) (fun i => decide (i = -1) || e) := by
  refine .bind (.useAll (l := [o]) (by simp [h])) fun _ => .bind (.consult (by decide) (by decide)) fun r => .ite (fun hr => ?_) fun hr => ?_
  · exact .bind (.setErr true) fun _ => .pure _ (fun _ => rfl) (fun _ h => (by cases h)) (by simp [hr])
  · exact .pure _ (fun _ => rfl) (fun _ h => (by cases h)) (by simp [hr])

theorem Good.callTest {f : Fn} {args : List Nat} (h : ∀ o ∈ args, Usable E I B o) :
    Good E I B e (callTest E f args) (fun _ => I) (fun _ => []) (fun _ => e) :=
  .bind (.useAll h) fun _ => .bind (.consult (by decide) (by decide)) fun _ =>
    .pure _ (fun _ => rfl) (fun _ h => (by cases h)) rfl

theorem Good.dictGet {d key : Nat} (hd : Usable E I B d) (hk : Usable E I B key) :
    Good E I B e (dictGet E d key) (fun _ => I) lentOf (fun _ => e) := by
  refine .bind (.useAll (l := [d, key]) (by simp [hd, hk])) fun _ => .bind (.consult (by decide) (by decide)) fun r => ?_
  refine .ite (fun _ => .pure _ (fun _ => rfl) (fun _ h => (by cases h)) rfl) fun _ => ?_
  intro m hm
  refine ⟨fun _ => rfl, fun o h => lent_loose h (fun k hk => by simp [hk]), fun o h => ?_, hm.err, [], rfl⟩
  simp only [lentOf, List.mem_singleton] at h
  subst h
  exact .inl (by simp)

theorem Good.lookup {dict : Ptr} {name : Nat} (hd : ∀ d, dict = some d → Usable E I B d) (hn : Usable E I B name) :
    Good E I B e (lookup E dict name) (fun _ => I) lentOf (fun _ => e) := by
  cases dict with
  | none => exact .pure _ (fun _ => rfl) (fun _ h => (by cases h)) rfl
  | some d => exact .dictGet (hd d rfl) hn

theorem Good.loadGetperms (self : Nat) :
    Good E I B e (loadGetperms self) (fun _ => I) lentOf (fun _ => e) := by
  intro m hm
  refine ⟨fun _ => rfl, fun o h => lent_loose h (fun k hk => by simp [hk]), fun o h => ?_, hm.err, [], rfl⟩
  cases hp : m.getperms self with
  | none => rw [hp] at h; cases h
  | some d =>
    rw [hp] at h
    simp only [lentOf, List.mem_singleton] at h
    subst h
    exact .inl (by simp)

theorem Good.loadSetperms (self : Nat) :
    Good E I B e (loadSetperms self) (fun _ => I) lentOf (fun _ => e) := by
  intro m hm
  refine ⟨fun _ => rfl, fun o h => lent_loose h (fun k hk => by simp [hk]), fun o h => ?_, hm.err, [], rfl⟩
  cases hp : m.setperms self with
  | none => rw [hp] at h; cases h
  | some d =>
    rw [hp] at h
    simp only [lentOf, List.mem_singleton] at h
    subst h
    exact .inl (by simp)

/-- `MAKE_STRING` leaks the bytes. -/
theorem Good.makeString {name : Nat} (hn : Usable E I B name) :
    Good E I B e (makeString E name) (fun _ => I) (fun p => [p]) (fun p => p.isNone || e) := by
  refine .bind (.useAll (l := [name]) (by simp [hn])) fun _ => ?_
  intro m hm
  have hl : ∀ o, Lent E m o → Lent E _ o := fun o h => lent_consult (k := .asUtf8) (f := .utf8) (args := [name]) (r := E.reply m.log.length) h
  have hrun : ∀ k : Reply → C Ptr, (CM.consult E .asUtf8 .utf8 [name] >>= k) m = k (E.reply m.log.length)
      { m with log := (.asUtf8, E.reply m.log.length) :: m.log,
               asked := ⟨.utf8, [name], m.raised, E.reply m.log.length⟩ :: m.asked,
               loose := fun o => m.loose o && !((E.reply m.log.length).drops.contains o) } := fun _ => rfl
  rw [hrun]
  by_cases hr : (E.reply m.log.length).null = true
  · rw [ite_run, if_pos hr]
    refine ⟨fun o => ?_, hl, fun o h => ?_, .inr (.inr rfl), [(.asUtf8, _)], rfl⟩
    · simp [leaks, leakedBy, hr]
    · rw [List.mem_singleton] at h
      subst h
      exact ⟨(.asUtf8, _), List.mem_cons_self .., rfl, hr⟩
  · rw [ite_run, if_neg hr]
    refine ⟨fun o => ?_, fun o h => ?_, fun o h => ?_, ?_, [(.asUtf8, _)], rfl⟩
    · simp only [leaks, List.countP_cons, leakedBy, hr]
      by_cases ho : o = (E.reply m.log.length).obj
      · subst ho; simp; omega
      · simp [ho, Ne.symm ho]
    · have := hl o h
      cases o <;> exact this
    · rw [List.mem_singleton] at h
      subst h
      refine .inr (.inr ?_)
      simp [leaks, leakedBy, hr]
    · simpa using hm.err.cons

theorem Good.readText {s : Ptr} (h : s ∈ B) :
    Good E I B e (readText E s) (fun _ => I) (fun _ => []) (fun _ => e) := by
  cases s with
  | none => exact fun m hm => hm.lent _ h
  | some b => exact .bind (.use (.inr (.inr h))) fun _ => .pure _ (fun _ => rfl) (fun _ h => (by cases h)) rfl

theorem Good.parse {args : List Nat} (h : ∀ o ∈ args, Usable E I B o) :
    Good E I B e (parse E args) (fun _ => I) (fun _ => []) (fun ok => !ok || e) := by
  refine .bind (.useAll h) fun _ => .bind (.consult (by decide) (by decide)) fun r => .ite (fun _ => ?_) fun _ => ?_
  · exact .bind (.setErr true) fun _ => .pure _ (fun _ => rfl) (fun _ h => (by cases h)) rfl
  · exact .pure _ (fun _ => rfl) (fun _ h => (by cases h)) rfl

theorem Good.setObject {exc arg : Nat} (h : Usable E I B exc) (h' : Usable E I B arg) :
    Good E I B e (setObject E exc arg) (fun _ => I) (fun _ => []) (fun _ => true) :=
  .bind (.useAll (l := [exc, arg]) (by simp [h, h'])) fun _ => .setErr true

end

end ZS.CM
