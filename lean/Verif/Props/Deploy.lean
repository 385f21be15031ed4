import Verif.Props.Confine
import Verif.Props.Meta
import Verif.Props.Mediation
import Verif.Spec.Deploy

/-!
# C66 From the configuration file to the operation
-/

namespace ZS.Props
open Spec
variable {A : Type}

/-! ## What a configuration leaves alone -/

/-- The kinds of registry entries there are without checkers of the application's own making. -/
def StockEntry (c : Val) : Prop :=
  (∃ i g st, c = .checker i g st ∧ 6 ≤ g ∧ 6 ≤ st) ∨ c = .noProxy ∨ c = moduleFactory

/-- The registry as the package and its configuration leave it; the dictionaries below 6 belong to
checkers that are in no registry entry. -/
structure Stock (E : Ext) (s : St A) : Prop where
  next : 6 ≤ s.nextId
  entries : ∀ k c, s.reg.get? k = some c → StockEntry c
  module : s.reg.get? (.ty "module") = some moduleFactory
  factory : ∀ k, s.reg.get? k = some moduleFactory → k = .ty "module"
  reserved : ∀ i, i < 6 → s.dicts i = initialDicts E i
  avail : s.avail = availableByDefault

theorem stock_initial (E : Ext) (a : A) : Stock E (initial E a) where
  next := by simp [initial]
  entries := by
    intro k c hk
    have hm := PyDict.mem_of_get? hk
    have : ∀ p ∈ PyDict.update (PyDict.update [] defaultCheckers) basicTypes,
        (∃ i ∈ [3, 4, 5, 6, 7, 8, 9, 10, 11, 12, 13, 14], p.2 = initChecker i) ∨ p.2 = .noProxy ∨ p.2 = moduleFactory := by
      decide
    rcases this (k, c) hm with ⟨i, hi, h⟩ | h
    · refine .inl ⟨i, 2 * i, 2 * i + 1, h, ?_⟩
      have : 3 ≤ i := by
        simp only [List.mem_cons, List.not_mem_nil, or_false] at hi
        omega
      omega
    · exact .inr h
  module := by simp only [initial]; decide
  factory := by
    intro k hk
    have hm := PyDict.mem_of_get? hk
    have : ∀ p ∈ PyDict.update (PyDict.update [] defaultCheckers) basicTypes, p.2 = moduleFactory → p.1 = .ty "module" := by
      decide
    exact this (k, moduleFactory) hm rfl
  reserved := fun _ _ => rfl
  avail := rfl

theorem StockEntry.ne_none {c : Val} (h : StockEntry c) : c ≠ .none := by
  rintro rfl
  rcases h with ⟨_, _, _, h, _⟩ | h | h <;> cases h

theorem StockEntry.dicts {c : Val} (h : StockEntry c) {g st : Nat} (hd : checkerDicts c = some (g, st)) : 6 ≤ g ∧ 6 ≤ st := by
  rcases h with ⟨_, _, _, rfl, h⟩ | rfl | rfl <;> cases hd
  exact h

theorem getOrCreate_stock {E : Ext} (t : Val) (s : St A) (h : Stock E s) :
    Stock E (getOrCreate t s).2 ∧ ∀ c, (getOrCreate t s).1 = .ok c → StockEntry c := by
  cases ht : definable t with
  | none =>
    have : getOrCreate t s = (.err .typeError, s) := by simp [getOrCreate, ht]
    rw [this]
    exact ⟨h, fun _ h => by cases h⟩
  | some k =>
    rw [definable_some ht]
    cases hc : s.reg.get? k with
    | none =>
      rw [getOrCreate_new s k hc]
      have hn := h.next
      have he : StockEntry (.checker (s.nextId + 2) s.nextId (s.nextId + 1)) := .inl ⟨_, _, _, rfl, by omega, by omega⟩
      refine ⟨⟨by simp only [created]; omega, ?_, ?_, ?_, ?_, h.avail⟩, fun c hc => by cases hc; exact he⟩
      · intro k' c hk
        simp only [created, PyDict.get?_set] at hk
        split at hk
        · cases hk; exact he
        · exact h.entries _ _ hk
      · simp only [created, PyDict.get?_set]
        rw [if_neg (by rintro rfl; rw [h.module] at hc; cases hc)]
        exact h.module
      · intro k' hk
        simp only [created, PyDict.get?_set] at hk
        split at hk
        · cases hk
        · exact h.factory _ hk
      · intro i hi
        simp only [created]
        rw [if_neg (by omega), if_neg (by omega)]
        exact h.reserved i hi
    | some c =>
      have he := h.entries _ _ hc
      rw [getOrCreate_old s k c hc he.ne_none]
      exact ⟨h, fun c' hc' => by cases hc'; exact he⟩

theorem stock_setDict {E : Ext} {s : St A} (h : Stock E s) {g : Nat} (hg : 6 ≤ g) (d : PyDict Name Val) :
    Stock E { s with dicts := fun i => if i = g then d else s.dicts i } where
  next := h.next
  entries := h.entries
  module := h.module
  factory := h.factory
  reserved := fun i hi => by
    simp only
    rw [if_neg (by omega)]
    exact h.reserved i hi
  avail := h.avail

theorem stock_dictSet {E : Ext} {g : Nat} (hg : 6 ≤ g) (n : Name) (p : Val) : Pres (Stock E) (dictSet g n p : M A Unit) :=
  fun s h => stock_setDict h hg ((s.dicts g).set n p)

theorem stock_copyDict {E : Ext} {src dst : Nat} (hd : 6 ≤ dst) : Pres (Stock E) (copyDict src dst : M A Unit) := by
  intro s h
  obtain ⟨d, h1, _⟩ := copyDict_any src dst s
  rw [h1]
  exact stock_setDict h hd d

/-- What comes after finding or making the class's checker. -/
theorem stock_bind {E : Ext} {t : Val} {β : Type} {f : Val → M A β} (hf : ∀ c, StockEntry c → Pres (Stock E) (f c)) :
    Pres (Stock E) (getOrCreate t >>= f) := by
  intro s h
  obtain ⟨h1, h2⟩ := getOrCreate_stock t s h
  rw [run_bind]
  rcases hr : getOrCreate t s with ⟨r, s1⟩
  rw [hr] at h1 h2
  cases r with
  | ok c => exact hf c (h2 c rfl) s1 h1
  | err e => exact h1
  | diverge => exact h1

theorem stock_action {E : Ext} (a : Action) : Pres (Stock E) (runAction a : M A Unit) := by
  cases a with
  | mimic k kl =>
    show Pres (Stock E) (protectLikeUnto k.val kl.val)
    unfold protectLikeUnto
    split
    · exact .pure _
    · refine .bind .get fun s0 => ?_
      unfold likeFrom
      refine .ite (.pure _) ?_
      split
      · exact .throw _
      · unfold likeCopy
        refine stock_bind fun c hc => ?_
        split
        · exact .throw _
        · next hd =>
          obtain ⟨h1, h2⟩ := hc.dicts hd
          exact .bind (stock_copyDict h1) fun _ => stock_copyDict h2
  | name k n p =>
    show Pres (Stock E) (protectName k.val n p)
    unfold protectName
    refine stock_bind fun c hc => ?_
    split
    · next hd => exact stock_dictSet (hc.dicts hd).1 _ _
    · exact .throw _
  | setAttr k n p =>
    show Pres (Stock E) (protectSetAttribute k.val n p)
    unfold protectSetAttribute
    refine stock_bind fun c hc => ?_
    split
    · next hd => exact stock_dictSet (hc.dicts hd).2 _ _
    · exact .throw _
  | classImplements k i => exact .pure _
  | provideInterface i => exact .pure _

theorem stock_configure {E : Ext} (l : List Directive) : Pres (Stock E) (configure l : M A Unit) := by
  have h : ∀ l : List Action, Pres (Stock E) (runActions l : M A Unit) := by
    intro l
    induction l with
    | nil => exact .pure _
    | cons a r ih => exact .bind (stock_action a) fun _ => ih
  unfold configure
  split
  · exact .throw _
  · exact h _

/-! ## The checker of a new proxy -/

theorem select_assigned {E : Ext} {X : Ctx A} {v : Val} {s0 s s' : St A} {k : Val} (h : Stock E s0)
    (hreg0 : s.reg = s0.reg) (hs : selectChecker X v s = (.ok k, s')) (hk : k ≠ .none) : Assigned X.W s0.reg v k := by
  have entries := h.entries
  have module := h.module
  have factory := h.factory
  rw [← hreg0] at entries module factory ⊢
  have spec := C07_select_sound X v s _ _ hs (by simp)
  cases spec with
  | rock => exact absurd rfl hk
  | exception => exact absurd rfl hk
  | @resolved e _ _ he hne _ hr =>
    have hkey : (∀ m, v ≠ .module m) → keyOf X.W v = .ty (typeOf X.W v) := by
      intro hm
      cases v with
      | module m => exact absurd rfl (hm m)
      | _ => rfl
    have nofn : ¬ IsChecker moduleFactory := by rintro (⟨_, _, _, h⟩ | ⟨_, _, _, _, h⟩) <;> cases h
    rcases he with he | ⟨hnone, rfl⟩
    · by_cases hf : e = moduleFactory
      · subst hf
        have ht : typeOf X.W v = "module" := by
          exact Key.ty.inj (factory _ he)
        have named : (∀ m, v = .module m → s.reg.get? (.mod m) = none) → k = .checker 2 4 5 → Assigned X.W s.reg v k := by
          rintro hm rfl
          exact .named ht hm
        -- the factory answers with the module's own checker or the one for names
        have answers : ∀ c' s1, Calls X.W s v moduleFactory (.ok c') s1 → c' ≠ .none → c' ≠ .noProxy →
            s1 = s ∧ ((∃ m, v = .module m ∧ s.reg.get? (.mod m) = some c')
              ∨ ((∀ m, v = .module m → s.reg.get? (.mod m) = none) ∧ c' = .checker 2 4 5)) := by
          intro c' s1 hc _ _
          generalize hr' : (Res.ok c' : Res Val) = r' at hc
          generalize hf' : moduleFactory = f' at hc
          cases hc with
          | moduleOwn h1 h2 => cases hr'; exact ⟨rfl, .inl ⟨_, h1, h2⟩⟩
          | moduleNamed h1 h2 =>
            cases hr'
            exact ⟨rfl, .inr ⟨fun m hm => by rw [h1] at hm; cases hm; exact h2, rfl⟩⟩
          | otherNamed h1 => cases hr'; exact ⟨rfl, .inr ⟨fun m hm => absurd hm (h1 m), rfl⟩⟩
          | notCallable h1 => cases hr'
          | code h1 => exact absurd hf'.symm h1
        cases hr with
        | found hc => exact absurd hc nofn
        | none => exact absurd rfl hk
        | step _ hcall hn1 hn2 hrest =>
          obtain ⟨rfl, hans⟩ := answers _ _ hcall hn1 hn2
          rcases hans with ⟨m, rfl, hreg⟩ | ⟨hm, rfl⟩
          · have hst := entries _ _ hreg
            rcases hst with ⟨i, g, st, rfl, _⟩ | rfl | rfl
            · cases hrest with
              | found hc => exact .registered hreg hc
              | none hc => exact absurd (.inl ⟨_, _, _, rfl⟩) hc
              | step hc => exact absurd (.inl ⟨_, _, _, rfl⟩) hc
            · exact absurd rfl hn2
            · have := factory _ hreg
              cases this
          · cases hrest with
            | found hc => exact named hm rfl
            | none hc => exact absurd (.inl ⟨_, _, _, rfl⟩) hc
            | step hc => exact absurd (.inl ⟨_, _, _, rfl⟩) hc
      · have hst := entries _ _ he
        rcases hst with ⟨i, g, st, rfl, _⟩ | rfl | rfl
        · have hm : ∀ m, v ≠ .module m := by
            rintro m rfl
            have : s.reg.get? (.ty "module") = some (.checker i g st) := he
            rw [module] at this
            cases this
          cases hr with
          | found hc => exact .registered (by rw [hkey hm]; exact he) hc
          | none hc => exact absurd (.inl ⟨_, _, _, rfl⟩) hc
          | step hc => exact absurd (.inl ⟨_, _, _, rfl⟩) hc
        · exact absurd rfl hne
        · exact absurd rfl hf
    · have hm : ∀ m, v ≠ .module m := by
        rintro m rfl
        have : s.reg.get? (.ty "module") = none := hnone
        rw [module] at this
        cases this
      cases hr with
      | found hc => exact .unknown hm (by rw [hkey hm]; exact hnone)
      | none hc => exact absurd (.inl ⟨_, _, _, rfl⟩) hc
      | step hc => exact absurd (.inl ⟨_, _, _, rfl⟩) hc

/-! ## What untrusted code gets -/

/-- The declarations are those of `s0`. -/
abbrev Same0 (s0 s : St A) : Prop := protection s = protection s0

theorem same0_keeps {X : Ctx A} {s0 : St A} (h : Relies X.W s0) : Keeps (Same0 s0) X.W :=
  ⟨fun r s hs => (h.declarations r s).trans hs, fun _ _ h => h, fun _ h => h⟩

/-- The values application code returns. -/
def Fit (X : Ctx A) (s0 : St A) (v : Val) : Prop := Issued X.W s0.reg v ∧ ∀ i cls u, v ≠ .deco i cls u

/-- The result is a registry's proxy or none, whenever the declarations were in order at the beginning. -/
def Issues (X : Ctx A) (s0 : St A) (x : M A Val) : Prop :=
  ∀ s, Same0 s0 s → ∀ v s', x s = (.ok v, s') → Issued X.W s0.reg v

theorem issued_nonproxy {W : World A} {reg : PyDict Key Val} {v : Val} (h : ¬ IsProxy v) : Issued W reg v := by
  rintro i w c rfl
  exact absurd ⟨_, _, _, rfl⟩ h

theorem issued_basic {W : World A} {reg : PyDict Key Val} {v : Val} (h : Basic v) : Issued W reg v := by
  refine issued_nonproxy ?_
  rintro ⟨i, w, c, rfl⟩
  rcases h with h | h | ⟨_, h⟩ | ⟨_, h⟩ | ⟨_, _, h⟩ <;> cases h

theorem getSC_none {X : Ctx A} {s0 : St A} (h : Relies X.W s0) {v : Val} (hd : ∀ i cls u, v ≠ .deco i cls u) {s s' : St A} {k : Val} :
    getSC X v s ≠ (.ok k, s') := by
  intro hr
  cases v with
  | deco i cls u => exact hd _ _ _ rfl
  | obj o => obtain ⟨s1, h1⟩ := probe_ok hr; exact h.noOwn _ _ _ _ h1
  | type o => obtain ⟨s1, h1⟩ := probe_ok hr; exact h.noOwn _ _ _ _ h1
  | module o => obtain ⟨s1, h1⟩ := probe_ok hr; exact h.noOwn _ _ _ _ h1
  | fn o => obtain ⟨s1, h1⟩ := probe_ok hr; exact h.noOwn _ _ _ _ h1
  | _ => cases hr

namespace Issues
variable {E : Ext} {X : Ctx A} {s0 : St A}

theorem bind {α : Type} {x : M A α} {f : α → M A Val} (hx : Pres (Same0 s0) x) (hf : ∀ a, Issues X s0 (f a)) :
    Issues X s0 (x >>= f) := by
  intro s hs v s' h
  obtain ⟨a, s1, h1, h2⟩ := bind_eq_ok h
  have := hx s hs
  rw [h1] at this
  exact hf a s1 this v s' h2

theorem perform_fit (h : Relies X.W s0) {r : RawOp} {s s' : St A} {v : Val} (hs : Same0 s0 s)
    (hp : ZS.perform X r s = (.ok v, s')) : Fit X s0 v := by
  obtain ⟨s1, h1⟩ := perform_ok hp
  exact h.results _ { s with trace := s.trace ++ [.performed r] } _ _ hs h1

theorem perform (h : Relies X.W s0) {r : RawOp} {f : Val → M A Val} (hf : ∀ v, Fit X s0 v → Issues X s0 (f v)) :
    Issues X s0 (ZS.perform X r >>= f) := by
  intro s hs v s' hr
  obtain ⟨a, s1, h1, h2⟩ := bind_eq_ok hr
  have := Pres.perform (same0_keeps h) r s hs
  rw [h1] at this
  exact hf a (perform_fit h hs h1) s1 this v s' h2

theorem basic {x : M A Val} (h : ∀ s v s', x s = (.ok v, s') → Basic v) : Issues X s0 x :=
  fun s _ v s' hx => issued_basic (h s v s' hx)

theorem throw (e : Exn) : Issues X s0 (M.throw e) := fun _ _ _ _ h => by cases h

theorem pureBasic {v : Val} (h : Basic v) : Issues X s0 (pure v) := by
  intro s _ r s' hx; cases hx; exact issued_basic h

theorem tryCatch {x : M A Val} {p : Exn → Bool} {g : Exn → M A Val} (hp : Pres (Same0 s0) x)
    (hx : Issues X s0 x) (hg : ∀ e, Issues X s0 (g e)) : Issues X s0 (M.tryCatch x p g) := by
  intro s hs v s' h
  rw [run_tryCatch] at h
  have hp' := hp s hs
  rcases hxs : x s with ⟨r, s1⟩
  rw [hxs] at h hp'
  cases r with
  | ok a => cases h; exact hx s hs _ _ hxs
  | err e =>
    simp only at h
    split at h
    · exact hg e s1 hp' v s' h
    · cases h
  | diverge => cases h

theorem proxy (hc : X.impl = .c) (hE : Stock E s0) (h : Relies X.W s0) {c v : Val} (hchk : IsChecker c) (hv : Fit X s0 v) :
    Issues X s0 (chkProxy X c v) := by
  intro s hs r s' hr
  have hck : c.isChecker = true := by rcases hchk with ⟨_, _, _, rfl⟩ | ⟨_, _, _, _, rfl⟩ <;> rfl
  replace hr : proxyC X v s = (.ok r, s') := by
    rw [← hr]
    unfold chkProxy
    rw [if_pos hck, hc]
  by_cases hp : v.isProxy = true
  · have : proxyC X v s = (.ok v, s) := congrFun (if_pos hp) s
    rw [this] at hr
    cases hr
    exact hv.1
  · have : proxyC X v s = (match getSC X v s with
      | (.ok c, s1) => if c = .none then (.err .valueError, s1) else newProxy v c s1
      | (.err _, s1) => (do
          let c ← selectChecker X v
          if c = .none then pure v else newProxy v c : M A Val) s1
      | (.diverge, s1) => (.diverge, s1)) := congrFun (if_neg hp) s
    rw [this] at hr
    have hg := Pres.getSC (same0_keeps h) v s hs
    rcases hgs : getSC X v s with ⟨x, s1⟩
    rw [hgs] at hr hg
    cases x with
    | ok k => exact absurd hgs (getSC_none h hv.2)
    | diverge => cases hr
    | err e =>
      simp only at hr
      obtain ⟨k, s2, h1, h2⟩ := bind_eq_ok hr
      by_cases hk : k = .none
      · rw [if_pos hk] at h2
        cases h2
        exact hv.1
      · rw [if_neg hk, run_newProxy v k s2 hk] at h2
        cases h2
        intro i w c' he
        cases he
        refine ⟨?_, select_assigned hE (congrArg (·.1) hg) h1 hk⟩
        rintro ⟨_, _, _, rfl⟩
        exact hp rfl

end Issues

/-- If the value is a proxy, its checker is one of the package's. -/
theorem issued_argOK {W : World A} {s0 : St A} {v : Val} (h : Issued W s0.reg v) : ArgOK v := by
  rintro i w c rfl
  obtain ⟨_, ha⟩ := h _ _ _ rfl
  cases ha with
  | registered _ hc => exact hc
  | unknown => exact .inl ⟨_, _, _, rfl⟩
  | named => exact .inl ⟨_, _, _, rfl⟩

section
variable {E : Ext} {X : Ctx A} {s0 : St A}

theorem check1C_issues (hc : X.impl = .c) (hE : Stock E s0) (h : Relies X.W s0) {k : CheckKind} {w c : Val} {n : Name} {r : RawOp}
    (hk : IsChecker c) : Issues X s0 (check1C X k w c n r) :=
  .bind (.guard (same0_keeps h) _ _ _ _) fun _ => .perform h fun _ hv => .proxy hc hE h hk hv

theorem check2C_issues (hc : X.impl = .c) (hE : Stock E s0) (h : Relies X.W s0) (b : BinName) {l r : Val} (hl : ArgOK l) (hr : ArgOK r) :
    Issues X s0 (check2C X b l r) := by
  unfold check2C
  split
  · exact check1C_issues hc hE h (hl _ _ _ rfl)
  · exact check1C_issues hc hE h (hr _ _ _ rfl)
  · exact .pureBasic basic_notImpl

theorem powC_issues (hc : X.impl = .c) (hE : Stock E s0) (h : Relies X.W s0) {x y m : Val} (hx : ArgOK x) (hy : ArgOK y) (hm : ArgOK m) :
    Issues X s0 (powC X x y m) := by
  unfold powC
  split
  · exact check1C_issues hc hE h (hx _ _ _ rfl)
  · exact check1C_issues hc hE h (hy _ _ _ rfl)
  · exact check1C_issues hc hE h (hm _ _ _ rfl)
  · exact .pureBasic basic_notImpl

theorem asStr_issues {v : Val} (hv : Issued X.W s0.reg v) : Issues X s0 (asStr X.W v) := by
  intro s _ r s' h
  by_cases hb : ∃ a x, v = .str a x
  · obtain ⟨a, x, rfl⟩ := hb
    cases h; exact issued_basic (.inr (.inr (.inr (.inr ⟨_, _, rfl⟩))))
  · have h' : (if X.W.strSub v then pure v else M.throw .typeError : M A Val) s = (.ok r, s') := by
      cases v with
      | str a x => exact absurd ⟨_, _, rfl⟩ hb
      | _ => exact h
    by_cases hs : X.W.strSub v = true
    · rw [if_pos hs] at h'; cases h'; exact hv
    · rw [if_neg hs] at h'; cases h'

theorem strC_issues (h : Relies X.W s0) {w c : Val} {n : Name} : Issues X s0 (strC X w c n) := by
  intro s hs v s' hr
  unfold strC at hr
  have hg := Pres.guard (same0_keeps h) .check c w n s hs
  rcases hgs : guard X .check c w n s with ⟨r, s1⟩
  rw [hgs] at hr hg
  cases r with
  | ok a => exact Issues.perform (f := asStr X.W) h (fun v hv => asStr_issues hv.1) s1 hg v s' hr
  | err e => exact issued_basic (defaultReprC_basic hr)
  | diverge => cases hr

theorem popC_issues (hi : X.impl = .c) (hE : Stock E s0) (hX : Relies X.W s0) (id : Nat) (w c : Val)
    (hp : Issued X.W s0.reg (.proxy id w c)) (op : POp) (ha : ∀ a ∈ opArgs op, Issued X.W s0.reg a) :
    Issues X s0 (popC X id w c op) := by
  have K := same0_keeps hX
  have hpa : ArgOK (.proxy id w c) := issued_argOK hp
  have hc : IsChecker c := hpa _ _ _ rfl
  have harg : ∀ a ∈ opArgs op, ArgOK a := fun a h => issued_argOK (ha a h)
  cases op with
  | getattr n b =>
    exact .bind (.chkCheck K (fun _ _ => .hasattrX K _ _) _ _ _ _) fun _ => .perform hX fun _ hv => .proxy hi hE hX hc hv
  | setattr n v => exact .bind (.guard K _ _ _ _) fun _ => .perform hX fun _ _ => .pureBasic basic_none
  | delattr n => exact .bind (.guard K _ _ _ _) fun _ => .perform hX fun _ _ => .pureBasic basic_none
  | unop u => cases u <;> first | exact .throw _ | exact check1C_issues hi hE hX hc
  | call args => exact check1C_issues hi hE hX hc
  | getitem k => exact check1C_issues hi hE hX hc
  | setitem k v => exact .bind (.guard K _ _ _ _) fun _ => .perform hX fun _ _ => .pureBasic basic_none
  | delitem k => exact .bind (.guard K _ _ _ _) fun _ => .perform hX fun _ _ => .pureBasic basic_none
  | contains v => exact .bind (.guard K _ _ _ _) fun _ => .perform hX fun _ _ => .pureBasic (basic_bool _)
  | len => exact .bind (.guard K _ _ _ _) fun _ => .perform hX fun _ _ => .basic fun _ _ _ h => asLen_ok h
  | iter => exact check1C_issues hi hE hX hc
  | next => exact check1C_issues hi hE hX hc
  | binL b o => exact check2C_issues hi hE hX b hpa (harg o (by simp [opArgs]))
  | binR b o => exact check2C_issues hi hE hX b (harg o (by simp [opArgs])) hpa
  | pow y m => exact powC_issues hi hE hX hpa (harg y (by simp [opArgs])) (harg m (by simp [opArgs]))
  | rpow x m => exact powC_issues hi hE hX (harg x (by simp [opArgs])) hpa (harg m (by simp [opArgs]))
  | pow3 x y => exact powC_issues hi hE hX (harg x (by simp [opArgs])) (harg y (by simp [opArgs])) hpa
  | inplace b o =>
    refine .bind (.guard K _ _ _ _) fun _ => .perform hX fun v hv => ?_
    by_cases h : v = w
    · rw [if_pos h]
      intro s _ r s' hr
      cases hr
      exact hp
    · rw [if_neg h]; exact .proxy hi hE hX hc hv
  | compare b o =>
    refine .perform hX fun v hv => ?_
    by_cases h : ∃ t, v = .bool t
    · obtain ⟨t, rfl⟩ := h
      exact .pureBasic (basic_bool _)
    · cases v with
      | bool t => exact absurd ⟨_, rfl⟩ h
      | _ => exact .proxy hi hE hX hc hv
  | hash => exact .perform hX fun _ _ => .basic fun _ _ _ h => asInt_ok h
  | bool => exact .perform hX fun _ _ => .pureBasic (basic_bool _)
  | lengthHint =>
    refine .tryCatch (.perform K _) ?_ fun _ => .pureBasic basic_notImpl
    intro s hs v s' h
    exact (Issues.perform_fit hX hs h).1
  | str => exact strC_issues hX
  | repr => exact strC_issues hX

theorem pop_issues (hi : X.impl = .c) (hE : Stock E s0) (hX : Relies X.W s0) (p : Val)
    (hp : Issued X.W s0.reg p) (op : POp) (ha : ∀ a ∈ opArgs op, Issued X.W s0.reg a) :
    Issues X s0 (pop X p op) := by
  unfold pop
  split
  · rw [hi]; exact popC_issues hi hE hX _ _ _ hp op ha
  · exact .throw _

/-- Throughout a session the declarations stay what they are, and the code holds only proxies that are
the registry's. -/
theorem session_issued (hi : X.impl = .c) (hE : Stock E s0) (hX : Relies X.W s0) {s s' : St A} {held held' : List Val}
    (hs : Same0 s0 s) (h0 : ∀ v ∈ held, Issued X.W s0.reg v) (h : Session X (s, held) (s', held')) :
    Same0 s0 s' ∧ ∀ v ∈ held', Issued X.W s0.reg v := by
  generalize ha : (s, held) = a at h
  generalize hb : (s', held') = b at h
  induction h generalizing s' held' with
  | nil => subst ha; cases hb; exact ⟨hs, h0⟩
  | @cons b c _ hm ih =>
    subst hb
    obtain ⟨sb, hb⟩ := b
    obtain ⟨i1, i2⟩ := ih rfl
    have keep : ∀ p op, Same0 s0 (pop X p op sb).2 := fun p op =>
      Pres.pop (same0_keeps hX) p op (fun h => by rw [hi] at h; cases h.1) sb i1
    cases hm with
    | @returns _ _ p op v _ hp harg hr =>
      refine ⟨by have := keep p op; rwa [hr] at this, ?_⟩
      intro e he
      rcases List.mem_cons.mp he with rfl | he
      · exact pop_issues hi hE hX p (i2 _ hp) op (fun a ha => i2 a (harg a ha)) _ i1 _ _ hr
      · exact i2 e he
    | @raises _ _ p op _ _ hp harg hr => exact ⟨by have := keep p op; rwa [hr] at this, i2⟩
    | constant hb =>
      refine ⟨i1, fun e he => ?_⟩
      rcases List.mem_cons.mp he with rfl | he
      · exact issued_basic hb
      · exact i2 e he
    | elsewhere hs => exact ⟨hs.trans i1, i2⟩

end

/-! ## Checks and declarations -/

theorem declared_c (d : PyDict Name Val) (n : Name) (p : Val) : Declared .c d n p ↔ d.get? n = some p := by
  simp [Declared]

theorem undeclared_c (d : PyDict Name Val) (n : Name) : Undeclared .c d n ↔ d.get? n = none := by
  unfold Undeclared
  simp only [declared_c]
  cases d.get? n with
  | none => simp
  | some p => simp

theorem noIter_of_hasattr {X : Ctx A} {w : Val} (hw : ¬ IsProxy w) {s : St A}
    (h : (hasattrX X w "__iter__" s).1 = .ok false) : NoIter X.W s w := by
  have hrun : hasattrX X w "__iter__" s = hasattrOf X (probe X (.getattr w "__iter__")) s := by
    unfold hasattrX
    cases w with
    | proxy i u c => exact absurd ⟨_, _, _, rfl⟩ hw
    | _ => cases X.depth <;> rfl
  rw [hrun] at h
  unfold hasattrOf at h
  rcases ha : X.W.apply (.getattr w "__iter__") { s with trace := s.trace ++ [.probed (.getattr w "__iter__")] } with ⟨r, s1⟩
  have hp : probe X (.getattr w "__iter__") s = (r, { s1 with trace := s.trace ++ [.probed (.getattr w "__iter__")] }) := by
    unfold probe
    simp only [ha]
  rw [hp] at h
  cases r with
  | ok v => cases h
  | err e => exact ⟨e, s1, ha⟩
  | diverge => cases h

/-- The dictionaries of a checker that the registry has for an object are its declarations; the checker
for modules without any has `__name__` in addition. -/
theorem assigned_dicts {E : Ext} {W : World A} {s0 : St A} (hE : Stock E s0) {w c : Val} (h : Assigned W s0.reg w c) :
    ∃ i g st, c = .checker i g st
      ∧ (∀ n, (s0.dicts st).get? n = storeOf s0 (keyOf W w) true n)
      ∧ ∀ n, (s0.dicts g).get? n = storeOf s0 (keyOf W w) false n
          ∨ (n = "__name__" ∧ storeOf s0 (keyOf W w) false n = none ∧ (s0.dicts g).get? n = some publicV) := by
  have empty : ∀ k b n, s0.reg.get? k = none → storeOf s0 k b n = none := by
    intro k b n hk
    simp [storeOf, stored, hk]
  cases h with
  | registered hr hc =>
    rcases hE.entries _ _ hr with ⟨i, g, st, rfl, _⟩ | rfl | rfl
    · exact ⟨i, g, st, rfl, fun n => by simp [storeOf, stored, hr, checkerDicts, side],
        fun n => .inl (by simp [storeOf, stored, hr, checkerDicts, side])⟩
    · rcases hc with ⟨_, _, _, h⟩ | ⟨_, _, _, _, h⟩ <;> cases h
    · rcases hc with ⟨_, _, _, h⟩ | ⟨_, _, _, _, h⟩ <;> cases h
  | unknown hm hr =>
    refine ⟨1, 2, 3, rfl, fun n => ?_, fun n => .inl ?_⟩
    · rw [hE.reserved 3 (by omega), empty _ _ _ hr]; rfl
    · rw [hE.reserved 2 (by omega), empty _ _ _ hr]; rfl
  | named ht hm =>
    have hnone : ∀ b n, storeOf s0 (keyOf W w) b n = none := by
      intro b n
      by_cases hmod : ∃ m, w = .module m
      · obtain ⟨m, rfl⟩ := hmod
        exact empty _ _ _ (hm m rfl)
      · have hk : keyOf W w = .ty "module" := by
          cases w with
          | module m => exact absurd ⟨m, rfl⟩ hmod
          | _ => exact congrArg Key.ty ht
        rw [hk]
        simp [storeOf, stored, hE.module, moduleFactory, checkerDicts]
    refine ⟨2, 4, 5, rfl, fun n => ?_, fun n => ?_⟩
    · rw [hE.reserved 5 (by omega), hnone]; rfl
    · rw [hE.reserved 4 (by omega), hnone]
      by_cases hn : n = "__name__"
      · subst hn
        exact .inr ⟨rfl, rfl, by simp only [initialDicts]; decide⟩
      · refine .inl ?_
        have : initialDicts E 4 = [("__name__", publicV)] := by simp only [initialDicts]; decide
        rw [this]
        simp [PyDict.get?, Ne.symm hn]

/-- A check with the registry's checker grants exactly what the declarations and the interaction
permit. -/
theorem check_permits {E : Ext} {X : Ctx A} {s0 s : St A} (hi : X.impl = .c) (hE : Stock E s0) (hs : Same0 s0 s) {w c : Val}
    (hw : ¬ IsProxy w) (ha : Assigned X.W s0.reg w c) (k : CheckKind) (n : Name)
    (h : (chkCheck X (hasattrX X) k c w n s).1 = .ok ()) : Permits X (storeOf s0) s w (isWrite k) n := by
  obtain ⟨i, g, st, rfl, hst, hg⟩ := assigned_dicts hE ha
  simp only [Same0, protection, Prod.mk.injEq] at hs
  obtain ⟨_, hd, hav⟩ := hs
  have hav : s.avail = availableByDefault := hav.trans hE.avail
  by_cases hk : k = .setattr
  · subst hk
    rw [C02_write_granted_iff] at h
    simp only [hi, declared_c, hd, hst] at h
    rcases h with h | ⟨p, ix, s', h1, h2, h3, h4⟩
    · exact .isPublic h
    · exact .granted h1 h2 h3 h4
  · have hwr : isWrite k = false := by cases k <;> first | rfl | exact absurd rfl hk
    rw [C01_granted_iff X _ k hk] at h
    simp only [hi, declared_c, undeclared_c, hd] at h
    rw [hwr]
    rcases hg n with hg | ⟨rfl, hnone, _⟩
    · simp only [hg] at h
      rcases h with h | ⟨p, ix, s', h1, h2, h3, h4⟩ | ⟨h1, h2⟩ | ⟨h1, _, h2, h3⟩
      · exact .isPublic h
      · exact .granted h1 h2 h3 h4
      · exact .byDefault rfl h1 (hav ▸ h2.1)
      · subst h2
        exact .noIter rfl h1 rfl (noIter_of_hasattr hw h3)
    · exact .byDefault rfl hnone (by decide)

theorem need_actor_mem (p : Val) (op : POp) (q : Need) (hq : need .c p op = some q) : q.actor = p ∨ q.actor ∈ opArgs op := by
  cases op with
  | binR b o =>
    simp only [need] at hq
    split at hq <;> cases hq <;> simp [opArgs]
  | rpow x m =>
    simp only [need] at hq
    split at hq <;> cases hq <;> simp [opArgs]
  | pow3 x y =>
    simp only [need] at hq
    split at hq
    · cases hq; simp [opArgs]
    · split at hq <;> cases hq <;> simp [opArgs]
  | compare b o => cases hq
  | hash => cases hq
  | bool => cases hq
  | lengthHint => cases hq
  | _ => cases hq; exact .inl rfl

/-! ## The meaning of a configuration is unique -/

theorem means_unique {p : Val} {q q' : Option Val} (h : Means p q) (h' : Means p q') : q = q' := by
  cases h with
  | isPublic a =>
    cases h' with
    | isPublic => rfl
    | other _ h => exact absurd rfl (h a)
  | isNone =>
    cases h' with
    | isNone => rfl
    | other _ _ h => exact absurd rfl h
  | other _ h1 h2 =>
    cases h' with
    | isPublic a => exact absurd rfl (h1 a)
    | isNone => exact absurd rfl h2
    | other => rfl

theorem effect_unique {d : Directive} {σ τ τ' : Store} (h : Effect d σ τ) (h' : Effect d σ τ') : τ = τ' := by
  funext k w n
  by_cases hk : k = about d
  · subst hk
    by_cases hd : ∃ p, Declares d w n p
    · obtain ⟨p, hd⟩ := hd
      by_cases hp : p = .none
      · subst hp
        rw [h.declaredNone w n hd, h'.declaredNone w n hd]
      · exact means_unique (h.declared w n p hd hp) (h'.declared w n p hd hp)
    · have hd : ∀ p, ¬ Declares d w n p := fun p hp => hd ⟨p, hp⟩
      by_cases hu : ∃ u, LikeClass d u
      · obtain ⟨u, hu⟩ := hu
        cases hq : σ u w n with
        | some q => rw [h.likeSome u hu w n q hd hq, h'.likeSome u hu w n q hd hq]
        | none => rw [h.likeNone u hu w n hd hq, h'.likeNone u hu w n hd hq]
      · have hu : ∀ u, ¬ LikeClass d u := fun u h => hu ⟨u, h⟩
        rw [h.same hu w n hd, h'.same hu w n hd]
  · rw [h.frame k hk, h'.frame k hk]

theorem effects_unique {l : List Directive} {σ τ τ' : Store} (h : Effects l σ τ) (h' : Effects l σ τ') : τ = τ' := by
  induction h with
  | nil => cases h'; rfl
  | cons h1 _ ih =>
    cases h' with
    | cons h3 h4 =>
      rw [effect_unique h3 h1] at h4
      exact ih h4

/-- What may be carried out for untrusted code, whatever made the declarations. -/
theorem stock_permitted {E : Ext} {s0 : St A} (hE : Stock E s0) {X : Ctx A} (hi : X.impl = .c) (hX : Relies X.W s0)
    {start : St A} {held : List Val} {s : St A} {held' : List Val} (hst : protection start = protection s0)
    (hh : ∀ v ∈ held, Issued X.W s0.reg v) (hses : Session X (start, held) (s, held')) (p : Val) (hp : p ∈ held')
    (hpp : IsProxy p) (op : POp) (harg : ∀ v ∈ opArgs op, v ∈ held') :
    NewEvents s (pop X p op s).2 (Only (Permitted X (storeOf s0) s p op)) := by
  obtain ⟨hs, hiss⟩ := session_issued hi hE hX hst hh hses
  refine (C13_mediation_c X hi p hpp op s).mono (only_mono fun ro hro => ?_)
  unfold Allowed at hro
  unfold Permitted
  rw [hi] at hro
  cases hq : need .c p op with
  | none =>
    rw [hq] at hro
    obtain ⟨i, w, c, rfl⟩ := hpp
    obtain ⟨w', c', hcur, hfree⟩ := hro
    cases hcur
    exact ⟨i, w, c, rfl, hfree⟩
  | some q =>
    rw [hq] at hro
    obtain ⟨w, c, hcur, hro⟩ := hro
    obtain ⟨i, w', c', hact⟩ := need_actor _ p hpp op q hq
    rw [hact] at hcur
    cases hcur
    have hq' : q.actor ∈ held' := by
      rcases need_actor_mem p op q hq with h | h
      · rw [h]; exact hp
      · exact harg _ h
    obtain ⟨hw, hass⟩ := hiss _ hq' i w c hact
    rcases hro with ⟨_, ⟨_, _, _, hn⟩, _⟩ | ⟨hcar, s1, hchk⟩
    · exact absurd ⟨_, _, _, hn⟩ hw
    · refine ⟨i, w, c, hact, ?_, check_permits hi hE hs hw hass _ _ (by rw [hchk])⟩
      cases op <;> exact hcar

/-! ## The claims -/

/-- **C66** The package is imported, a configuration is carried out, and an application that relies on
it hands out compiled proxies made by the registry.  Then whatever untrusted code does with them, for
as long as it likes and with whatever else going on but changes of the declarations: every operation
carried out for it on an application object is one of the unchecked ones, or what it asked for on that
object, under a name that the directives of the configuration — taken one after the other, on top of
what the package declares for types it knows — make public, or require a permission for which the
interaction at that moment granted on the object, or leave alone and the package makes available by
default. -/
theorem C66_configured (E : Ext) (a : A) (l : List Directive) (hr : Ready l (initial E a))
    (hl : ∀ d ∈ l, ∀ e, ¬ Raises d e) :
    ∃ s0, configure l (initial E a) = (.ok (), s0) ∧ ∃ σ, Effects l (storeOf (initial E a)) σ ∧
      (∀ τ, Effects l (storeOf (initial E a)) τ → τ = σ) ∧
      ∀ X : Ctx A, X.impl = .c → Relies X.W s0 → ∀ start held s held', protection start = protection s0 →
        (∀ v ∈ held, Issued X.W s0.reg v) → Session X (start, held) (s, held') →
        ∀ p ∈ held', IsProxy p → ∀ op, (∀ v ∈ opArgs op, v ∈ held') →
          NewEvents s (pop X p op s).2 (Only (Permitted X σ s p op)) := by
  obtain ⟨s0, h1, h2, _, _⟩ := C38_effects l (initial E a) (heap_initial E a) hr hl
  have hE : Stock E s0 := by
    have := stock_configure (E := E) l (initial E a) (stock_initial E a)
    rwa [h1] at this
  exact ⟨s0, h1, storeOf s0, h2, fun _ h => effects_unique h h2, fun X hi hX start held s held' hst hh hses p hp hpp op harg =>
    stock_permitted hE hi hX hst hh hses p hp hpp op harg⟩

/-- A declared permission decides. -/
theorem permits_declared {X : Ctx A} {σ : Store} {s : St A} {w : Val} {write : Bool} {n : Name} {p : Val} (hp : p ≠ .none)
    (hm : Means p (σ (keyOf X.W w) write n)) :
    Permits X σ s w write n ↔
      p = publicV ∨ (∃ z, p = .str z "zope.Public") ∨
        ∃ ix s', (s.threads X.tid).interaction = some ix ∧ IxAnswer X.W s p w ix (.ok true) s' := by
  generalize hq : σ (keyOf X.W w) write n = q at hm
  cases hm with
  | isPublic z => exact ⟨fun _ => .inr (.inl ⟨z, rfl⟩), fun _ => .isPublic hq⟩
  | isNone => exact absurd rfl hp
  | other _ h1 _ =>
    constructor
    · intro hper
      cases hper with
      | isPublic h => rw [hq] at h; cases h; exact .inl rfl
      | granted h2 h3 h4 h5 => rw [hq] at h2; cases h2; exact .inr (.inr ⟨_, _, h4, h5⟩)
      | byDefault hwr h2 => subst hwr; rw [hq] at h2; cases h2
      | noIter hwr h2 => subst hwr; rw [hq] at h2; cases h2
    · intro hper
      by_cases hpub : p = publicV
      · exact .isPublic (hpub ▸ hq)
      · rcases hper with h | ⟨z, h⟩ | ⟨ix, s', h4, h5⟩
        · exact absurd h hpub
        · exact absurd h (h1 z)
        · exact .granted hq hpub h4 h5

/-- **C66** In particular: if the last directive with anything to say about reading or writing the name
of a class requires a permission, then the name is permitted on an object of the class only if that
permission is `zope.Public` or the interaction grants it on that object. -/
theorem C66_last (X : Ctx A) (l l1 l2 : List Directive) (σ0 σ : Store) (h : Effects l σ0 σ) (d : Directive) (write : Bool)
    (n : Name) (p : Val) (hl : l = l1 ++ d :: l2) (hd : Declares d write n p) (hp : p ≠ .none)
    (hlast : ∀ d' ∈ l2, Silent d' (about d) write n) (s : St A) (w : Val) (hw : keyOf X.W w = about d) :
    Permits X σ s w write n ↔
      p = publicV ∨ (∃ z, p = .str z "zope.Public") ∨
        ∃ ix s', (s.threads X.tid).interaction = some ix ∧ IxAnswer X.W s p w ix (.ok true) s' := by
  rw [hl] at h
  obtain ⟨σ1, _, h3⟩ := Effects.split h
  have hm : Means p (σ (keyOf X.W w) write n) := by
    cases h3 with
    | cons h4 h5 =>
      rw [hw, Effects.silent h5 hlast]
      exact h4.declared write n p hd hp
  exact permits_declared hp hm

/-- Without a declaration. -/
theorem permits_undeclared {X : Ctx A} {σ : Store} {s : St A} {w : Val} {write : Bool} {n : Name}
    (hnone : σ (keyOf X.W w) write n = none) :
    Permits X σ s w write n ↔ write = false ∧ (n ∈ availableByDefault ∨ (n = "__iter__" ∧ NoIter X.W s w)) := by
  constructor
  · intro hper
    cases hper with
    | isPublic h => rw [hnone] at h; cases h
    | granted h => rw [hnone] at h; cases h
    | byDefault hwr _ hn => exact ⟨hwr, .inl hn⟩
    | noIter hwr _ hn hit => exact ⟨hwr, .inr ⟨hn, hit⟩⟩
  · rintro ⟨rfl, hn | ⟨hn, hit⟩⟩
    · exact .byDefault rfl hnone hn
    · exact .noIter rfl hnone hn hit

theorem available_c (n : Name) (h : n ∈ availableByDefault) : ∃ rest, n = "__" ++ rest := by
  simp only [availableByDefault, List.mem_cons, List.not_mem_nil, or_false] at h
  rcases h with rfl | rfl | rfl | rfl | rfl | rfl | rfl | rfl | rfl | rfl | rfl | rfl | rfl | rfl | rfl
  · exact ⟨"lt__", by decide⟩
  · exact ⟨"le__", by decide⟩
  · exact ⟨"eq__", by decide⟩
  · exact ⟨"gt__", by decide⟩
  · exact ⟨"ge__", by decide⟩
  · exact ⟨"ne__", by decide⟩
  · exact ⟨"hash__", by decide⟩
  · exact ⟨"bool__", by decide⟩
  · exact ⟨"class__", by decide⟩
  · exact ⟨"providedBy__", by decide⟩
  · exact ⟨"implements__", by decide⟩
  · exact ⟨"repr__", by decide⟩
  · exact ⟨"conform__", by decide⟩
  · exact ⟨"name__", by decide⟩
  · exact ⟨"parent__", by decide⟩

/-- **C66** ... and what no directive says anything about on a class the package does not know is
permitted only for reading, and only if it is available by default or an `__iter__` that is not
there. -/
theorem C66_undeclared (X : Ctx A) (E : Ext) (a : A) (l : List Directive) (σ : Store)
    (h : Effects l (storeOf (initial E a)) σ) (w : Val) (write : Bool) (n : Name)
    (hk : (initial E a).reg.get? (keyOf X.W w) = none) (hs : ∀ d ∈ l, Silent d (keyOf X.W w) write n) (s : St A) :
    Permits X σ s w write n ↔ write = false ∧ (n ∈ availableByDefault ∨ (n = "__iter__" ∧ NoIter X.W s w)) := by
  have hnone : σ (keyOf X.W w) write n = none := by
    rw [Effects.silent h hs]
    simp [storeOf, stored, hk]
  exact permits_undeclared hnone

/-- A check with the registry's checker grants what the declarations and the interaction permit. -/
theorem permits_check {E : Ext} {X : Ctx A} {s0 s : St A} (hi : X.impl = .c) (hE : Stock E s0) (hs : Same0 s0 s) {w c : Val}
    (hw : ¬ IsProxy w) (ha : Assigned X.W s0.reg w c) (k : CheckKind) (n : Name)
    (h : Permits X (storeOf s0) s w (isWrite k) n) : (chkCheck X (hasattrX X) k c w n s).1 = .ok () := by
  obtain ⟨i, g, st, rfl, hst, hg⟩ := assigned_dicts hE ha
  simp only [Same0, protection, Prod.mk.injEq] at hs
  obtain ⟨_, hd, hav⟩ := hs
  have hav : s.avail = availableByDefault := hav.trans hE.avail
  by_cases hk : k = .setattr
  · subst hk
    rw [C02_write_granted_iff]
    simp only [hi, declared_c, hd, hst]
    cases h with
    | isPublic h => exact .inl h
    | granted h1 h2 h3 h4 => exact .inr ⟨_, _, _, h1, h2, h3, h4⟩
    | byDefault h => cases h
    | noIter h => cases h
  · have hwr : isWrite k = false := by cases k <;> first | rfl | exact absurd rfl hk
    rw [hwr] at h
    rw [C01_granted_iff X _ k hk]
    simp only [hi, declared_c, undeclared_c, hd]
    have avail : n ∈ availableByDefault → Available .c s.avail n := fun hn => ⟨hav ▸ hn, fun _ => available_c n hn⟩
    rcases hg n with hg | ⟨rfl, hnone, hpub⟩
    · simp only [hg]
      cases h with
      | isPublic h => exact .inl h
      | granted h1 h2 h3 h4 => exact .inr (.inl ⟨_, _, _, h1, h2, h3, h4⟩)
      | byDefault _ h1 h2 => exact .inr (.inr (.inl ⟨h1, avail h2⟩))
      | noIter _ h1 h2 h3 =>
        subst h2
        by_cases hv : Available .c s.avail "__iter__"
        · exact .inr (.inr (.inl ⟨h1, hv⟩))
        · refine .inr (.inr (.inr ⟨h1, hv, rfl, ?_⟩))
          obtain ⟨e, s1, h3⟩ := h3
          have hrun : hasattrX X w "__iter__" s = hasattrOf X (probe X (.getattr w "__iter__")) s := by
            unfold hasattrX
            cases w with
            | proxy i u c => exact absurd ⟨_, _, _, rfl⟩ hw
            | _ => cases X.depth <;> rfl
          have hp : probe X (.getattr w "__iter__") s
              = (.err e, { s1 with trace := s.trace ++ [.probed (.getattr w "__iter__")] }) := by
            unfold probe
            simp only [h3]
          rw [hrun]
          unfold hasattrOf
          rw [hp, hi]
    · exact .inl hpub

/-- What is permitted is carried out, whatever made the declarations. -/
theorem stock_carried_out {E : Ext} {s0 : St A} (hE : Stock E s0) {X : Ctx A} (hi : X.impl = .c) (hX : Relies X.W s0)
    {start : St A} {held : List Val} {s : St A} {held' : List Val} (hst : protection start = protection s0)
    (hh : ∀ v ∈ held, Issued X.W s0.reg v) (hses : Session X (start, held) (s, held')) (p : Val) (hp : p ∈ held')
    (hpp : IsProxy p) (op : POp) (harg : ∀ v ∈ opArgs op, v ∈ held') (q : Need) (hq : need .c p op = some q)
    (hslot : ¬ NoSlot .c op) (hstr : op ≠ .str) (hrepr : op ≠ .repr) (i : Nat) (w c : Val) (hact : q.actor = .proxy i w c)
    (hper : Permits X (storeOf s0) s w (isWrite q.kind) q.name) :
    ∃ es, (pop X p op s).2.trace = s.trace ++ es ∧ .performed (q.carry w) ∈ es := by
  obtain ⟨hs, hiss⟩ := session_issued hi hE hX hst hh hses
  have hq' : q.actor ∈ held' := by
    rcases need_actor_mem p op q hq with h | h
    · rw [h]; exact hp
    · exact harg _ h
  obtain ⟨hw, hass⟩ := hiss _ hq' i w c hact
  have hchk := permits_check hi hE hs hw hass q.kind q.name hper
  rw [C13_exact_c X hi p hpp op q hq i w c hact hslot hstr hrepr s, run_bind]
  obtain ⟨es1, ha1, _⟩ := check_adds X q.kind c w q.name s
  rcases hr1 : chkCheck X (hasattrX X) q.kind c w q.name s with ⟨r1, s1⟩
  rw [hr1] at hchk ha1
  simp only at hchk ha1
  subst hchk
  simp only
  rw [run_bind]
  have hp2 : (perform X (q.carry w) s1).2.trace = s1.trace ++ [.performed (q.carry w)] := by
    unfold perform
    rfl
  rcases hr2 : perform X (q.carry w) s1 with ⟨r2, s2⟩
  rw [hr2] at hp2
  simp only at hp2
  cases r2 with
  | ok v =>
    obtain ⟨es2, ha2, _⟩ := deliver_adds X (fun _ => True) p w c op v s2
    refine ⟨es1 ++ [.performed (q.carry w)] ++ es2, ?_, by simp⟩
    simp only
    rw [ha2, hp2, ha1]
    simp
  | err e => exact ⟨es1 ++ [.performed (q.carry w)], by simp only; rw [hp2, ha1]; simp, by simp⟩
  | diverge => exact ⟨es1 ++ [.performed (q.carry w)], by simp only; rw [hp2, ha1]; simp, by simp⟩

/-- **C66** Conversely what the declarations and the interaction permit is carried out: each checked
operation of a compiled proxy that there is a slot for, conversions to strings apart. -/
theorem C66_carried_out (E : Ext) (a : A) (l : List Directive) (hr : Ready l (initial E a))
    (hl : ∀ d ∈ l, ∀ e, ¬ Raises d e) :
    ∃ s0, configure l (initial E a) = (.ok (), s0) ∧ ∃ σ, Effects l (storeOf (initial E a)) σ ∧
      (∀ τ, Effects l (storeOf (initial E a)) τ → τ = σ) ∧
      ∀ X : Ctx A, X.impl = .c → Relies X.W s0 → ∀ start held s held', protection start = protection s0 →
        (∀ v ∈ held, Issued X.W s0.reg v) → Session X (start, held) (s, held') →
        ∀ p ∈ held', IsProxy p → ∀ op, (∀ v ∈ opArgs op, v ∈ held') →
          ∀ q, need .c p op = some q → ¬ NoSlot .c op → op ≠ .str → op ≠ .repr →
            ∀ i w c, q.actor = .proxy i w c → Permits X σ s w (isWrite q.kind) q.name →
              ∃ es, (pop X p op s).2.trace = s.trace ++ es ∧ .performed (q.carry w) ∈ es := by
  obtain ⟨s0, h1, h2, _, _⟩ := C38_effects l (initial E a) (heap_initial E a) hr hl
  have hE : Stock E s0 := by
    have := stock_configure (E := E) l (initial E a) (stock_initial E a)
    rwa [h1] at this
  exact ⟨s0, h1, storeOf s0, h2, fun _ h => effects_unique h h2,
    fun X hi hX start held s held' hst hh hses p hp hpp op harg q hq hslot hstr hrepr i w c hact hper =>
      stock_carried_out hE hi hX hst hh hses p hp hpp op harg q hq hslot hstr hrepr i w c hact hper⟩

/-! ## A case -/

namespace Shop

/-- Reading `secret` and setting `w` on a `Thing` requires `view`, indexing is for everybody. -/
def config : List Directive :=
  [.cls "Thing" (.require ⟨Ex.view, ["secret"], [], none, ["w"], []⟩), .cls "Thing" (.allow ["__getitem__"] [])]

/-- The state after the configuration. -/
def s0 : St Unit := (configure config Ex.s0).2

/-- ... with an interaction that grants `view` and nothing else. -/
def now : St Unit := { s0 with threads := fun _ => ⟨some (.obj 50), none⟩ }

/-- What untrusted code is given: a `Thing` under the checker of its class. -/
def thing : Val := .proxy 500 (.obj 1) (.checker 102 100 101)

theorem ready : Ready config Ex.s0 := by
  intro d hd
  have hn : Ex.s0.reg.get? (.ty "Thing") = none := by decide
  simp only [config, List.mem_cons, List.not_mem_nil, or_false] at hd
  have hk : about d = .ty "Thing" := by rcases hd with rfl | rfl <;> rfl
  refine ⟨⟨fun c hc => ?_, fun c g st hc => ?_⟩, fun u hu => ?_⟩
  · rw [hk, hn] at hc; cases hc
  · rw [hk, hn] at hc; cases hc
  · rcases hd with rfl | rfl <;> cases hu
    rename_i h
    cases h

theorem fine : ∀ d ∈ config, ∀ e, ¬ Raises d e := by
  intro d hd e he
  have hall : ∀ d ∈ config, (emitDirective d).2 = none := by decide
  have := (emitDirective_raises d e).mpr he
  rw [hall d hd] at this
  cases this

theorem relies (s : St Unit) : Relies Ex.W s where
  declarations := by
    intro r s
    simp only [Ex.W]
    split <;> rfl
  noOwn := by
    intro v s k s' h
    simp only [Ex.W] at h
    cases h
  results := by
    intro r s v s' _ h
    simp only [Ex.W] at h
    split at h <;> cases h <;> exact ⟨fun _ _ _ h => (nomatch h), fun _ _ _ h => (nomatch h)⟩

theorem issued : ∀ v ∈ [thing], Issued Ex.W s0.reg v := by
  intro v hv i w c he
  simp only [List.mem_singleton] at hv
  subst hv
  cases he
  refine ⟨?_, .registered (by decide) (.inl ⟨_, _, _, rfl⟩)⟩
  rintro ⟨_, _, _, h⟩
  cases h

theorem configured : configure config (initial Ex.ext ()) = (.ok (), s0) := by
  have h : (configure config (initial Ex.ext ()) : Res Unit × St Unit).1 = .ok () := rfl
  exact Prod.ext h rfl

/-- The state after reading `secret`. -/
def s1 : St Unit := (pop (Ex.X .c) thing (.getattr "secret" false) now).2

/-- What reading `secret` gives. -/
def inner : Val := .proxy 103 (.obj 5) (.checker 102 100 101)

theorem step1 : pop (Ex.X .c) thing (.getattr "secret" false) now = (.ok inner, s1) := by
  have h : (pop (Ex.X .c) thing (.getattr "secret" false) now).1 = .ok inner := rfl
  exact Prod.ext h rfl

/-- A session in which the code obtains a proxy of a further object, under the registry's checker. -/
theorem session : Session (Ex.X .c) (now, [thing]) (s1, [inner, thing]) :=
  .cons .nil (.returns (List.mem_singleton.mpr rfl) (by intro _ h; cases h) step1)

/-- The hypotheses of the theorems are met, and the last directive about `secret` is the first one; the
interaction grants `view`, so that reading it is permitted.  Nothing is said about setting it. -/
example : Ready config (initial Ex.ext ()) ∧ (∀ d ∈ config, ∀ e, ¬ Raises d e) ∧ Relies Ex.W s0
    ∧ protection now = protection s0 ∧ (∀ v ∈ [thing], Issued Ex.W s0.reg v)
    ∧ Declares (.cls "Thing" (.require ⟨Ex.view, ["secret"], [], none, ["w"], []⟩)) false "secret" Ex.view
    ∧ Silent (.cls "Thing" (.allow ["__getitem__"] [])) (.ty "Thing") false "secret"
    ∧ (∀ d ∈ config, Silent d (.ty "Thing") true "secret")
    ∧ keyOf Ex.W (.obj 1) = .ty "Thing"
    ∧ (∃ s', IxAnswer Ex.W now Ex.view (.obj 1) (.obj 50) (.ok true) s') := by
  refine ⟨ready, fine, relies s0, rfl, issued, .attributes (by simp), ?_, ?_, rfl, ?_⟩
  · rintro -
    refine ⟨fun p hp => ?_, fun u hu => (nomatch hu)⟩
    cases hp with
    | allowAttributes h => simp at h
    | allowInterface h => cases h
  · intro d hd _
    simp only [config, List.mem_cons, List.not_mem_nil, or_false] at hd
    rcases hd with rfl | rfl
    · refine ⟨fun p hp => ?_, fun u hu => ?_⟩
      · cases hp with
        | setAttributes h => simp at h
        | setSchema h => cases h
      · cases hu with
        | like h => cases h
    · exact ⟨fun p hp => (nomatch hp), fun u hu => (nomatch hu)⟩
  · exact ⟨_, .foreign (fun _ h => (nomatch h)) rfl rfl⟩

/-- What happens: `secret` of the `Thing` is read while the interaction grants `view` and not without;
setting it is refused all the same. -/
example : (pop (Ex.X .c) thing (.getattr "secret" false) now).2.trace
      = [.probed (.method (.obj 50) "checkPermission" [Ex.view, .obj 1]), .performed (.getattr (.obj 1) "secret"),
         .probed (.getattr (.obj 5) "__Security_checker__")]
    ∧ (pop (Ex.X .c) thing (.getattr "secret" false) s0).2.trace = []
    ∧ (pop (Ex.X .c) thing (.setattr "secret" (.int 0)) now).1 = .err (.forbidden "secret" (.obj 1)) := by
  refine ⟨rfl, rfl, rfl⟩

end Shop

/-! ## Pure-Python proxies -/

namespace Till

/-- Object 1 is a `Till`, object 2 a `Safe`; `till += x` makes the safe. -/
def W : World Unit where
  objType := fun o => if o = 1 then "Till" else "Safe"
  metaType := fun _ => "type"
  isExc := fun _ => false
  isInst := fun _ _ => false
  truth := fun _ => true
  strSub := fun _ => false
  addr := fun _ => ""
  isLoc := fun _ => false
  apply := fun r s =>
    match r with
    | .getattr (.obj 1) "__iadd__" => (.ok (.fn 7), s)
    | .call (.fn 7) _ => (.ok (.obj 2), s)
    | .inplace _ _ _ => (.ok (.obj 2), s)
    | .baseGetattr _ "content" => (.ok (.int 5), s)
    | .getattr _ "content" => (.ok (.int 5), s)
    | _ => (.err (.attributeError "?"), s)

/-- Everybody may add to a `Till` and look into it; there is no declaration for a `Safe`. -/
def config : List Directive := [.cls "Till" (.allow ["__iadd__", "content"] [])]

/-- The state after the configuration. -/
def s0 : St Unit := (configure config (initial Ex.ext ())).2

/-- The proxy of the `Till`. -/
def till : Val := .proxy 500 (.obj 1) (.checker 102 100 101)

end Till

/-- **C66** is about compiled proxies: with pure-Python ones an in-place operation on an object of one
class whose result is an object of another leaves that under the checker of the first, so that what
is declared public on the first class can be done to the second, which has no declarations at all. -/
theorem C66_py : configure Till.config (initial Ex.ext ()) = (.ok (), Till.s0) ∧ Relies Till.W Till.s0
    ∧ Issued Till.W Till.s0.reg Till.till
    ∧ (∀ d ∈ Till.config, Silent d (keyOf Till.W (.obj 2)) false "content")
    ∧ (initial Ex.ext ()).reg.get? (keyOf Till.W (.obj 2)) = none
    ∧ (∃ s1 s2, pop ⟨Till.W, .py, 0, 5, 3⟩ Till.till (.inplace .iadd (.int 1)) Till.s0 = (.ok Till.till, s1)
        ∧ pop ⟨Till.W, .py, 0, 5, 3⟩ Till.till (.getattr "content" false) s1 = (.ok (.int 5), s2)
        ∧ .performed (.baseGetattr (.obj 2) "content") ∈ s2.trace)
    ∧ ∃ s1 s2, pop ⟨Till.W, .c, 0, 5, 3⟩ Till.till (.inplace .iadd (.int 1)) Till.s0
          = (.ok (.proxy 103 (.obj 2) (.checker 1 2 3)), s1)
        ∧ pop ⟨Till.W, .c, 0, 5, 3⟩ (.proxy 103 (.obj 2) (.checker 1 2 3)) (.getattr "content" false) s1
          = (.err (.forbidden "content" (.obj 2)), s2) := by
  refine ⟨Prod.ext rfl rfl, ⟨?_, ?_, ?_⟩, ?_, ?_, by decide, ⟨_, _, rfl, rfl, by decide⟩, ⟨_, _, rfl, rfl⟩⟩
  · intro r s
    simp only [Till.W]
    split <;> rfl
  · intro v s k s' h
    simp only [Till.W] at h
    split at h <;> first | (cases h; done) | (rename_i he; injection he with _ hn; exact absurd hn (by decide)) | (rename_i he; cases he)
  · intro r s v s' _ h
    simp only [Till.W] at h
    split at h <;> cases h <;> exact ⟨fun _ _ _ h => (nomatch h), fun _ _ _ h => (nomatch h)⟩
  · intro i w c he
    cases he
    refine ⟨?_, .registered (by decide) (.inl ⟨_, _, _, rfl⟩)⟩
    rintro ⟨_, _, _, h⟩
    cases h
  · intro d hd he
    simp only [Till.config, List.mem_singleton] at hd
    subst hd
    exact absurd he (by decide)

end ZS.Props
