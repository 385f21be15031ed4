import Verif.Props.SourceC4
import Verif.Props.CSession

/-!
# C87: what the source of the C modules guarantees

C57-C59, C64 and C75 for the functions of the files themselves.
-/

namespace ZS.Props
open ZS.CM ZS.CS ZS.Spec

variable {H : Host} {A : Type} {I : Interp A} {β : Type}

/-! ### The slots of the types in the source -/

/-- A member of a structure that is initialised with these entries. -/
def entry [DecidableEq μ] : List μ → List Entry → μ → Entry
  | a :: as, v :: vs, m => if a = m then v else entry as vs m
  | _, _, _ => .zero

/-- The function that a member is initialised to: what is named there and neither a table nor a documentation string. -/
def fnOf : Entry → Option String
  | .ref n => if n ∈ ["proxy_as_number", "proxy_as_sequence", "proxy_as_mapping", "proxy_doc", "proxy_methods", "Checker_as_mapping",
      "Checker_methods", "Checker_getset"] then none else some n
  | _ => none

/-- What the source puts into a slot of `SecurityProxyType`. -/
def srcProxy : TSlot → Option String
  | .nb m => if entry Tp.members' Src.SecurityProxyType_t .asNumber = .ref "proxy_as_number" then fnOf (entry Nb.members Src.proxy_as_number_t m) else none
  | .sq m => if entry Tp.members' Src.SecurityProxyType_t .asSequence = .ref "proxy_as_sequence" then fnOf (entry Sq.members Src.proxy_as_sequence_t m) else none
  | .mp m => if entry Tp.members' Src.SecurityProxyType_t .asMapping = .ref "proxy_as_mapping" then fnOf (entry Mp.members Src.proxy_as_mapping_t m) else none
  | .tp m => fnOf (entry Tp.members' Src.SecurityProxyType_t m)
  | .am _ => none
  | .bf _ => none

/-- What it puts into a slot of `CheckerType`. -/
def srcChecker : TSlot → Option String
  | .mp m => if entry Tp.members' Src.CheckerType_t .asMapping = .ref "Checker_as_mapping" then fnOf (entry Mp.members Src.Checker_as_mapping_t m) else none
  | .tp m => fnOf (entry Tp.members' Src.CheckerType_t m)
  | _ => none

/-- **Slots.** The slots of the two types are as in the model, except those that the initialisation functions fill in. -/
theorem C87_slots (s : TSlot) :
    (s ≠ .tp .alloc → s ≠ .tp .free → srcProxy s = (proxyOwn s).map cname) ∧
    (s ≠ .tp .new → srcChecker s = (checkerOwn s).map cname) := by
  have h1 : srcProxy (.tp .alloc) = none ∧ srcProxy (.tp .free) = none := by decide +kernel
  cases s with
  | nb m => revert m; intro m; cases m <;> decide +kernel
  | sq m => cases m <;> decide +kernel
  | mp m => cases m <;> decide +kernel
  | am m => cases m <;> decide +kernel
  | bf m => cases m <;> decide +kernel
  | tp m => cases m <;> decide +kernel

theorem srcProxy_own {s : TSlot} {n : String} (h : srcProxy s = some n) : ∃ f, proxyOwn s = some f ∧ cname f = n := by
  have ha : s ≠ .tp .alloc := by
    rintro rfl
    exact absurd (h.symm.trans (by decide +kernel : _ = none)) nofun
  have hf : s ≠ .tp .free := by
    rintro rfl
    exact absurd (h.symm.trans (by decide +kernel : _ = none)) nofun
  rw [(C87_slots s).1 ha hf] at h
  simpa using h

/-- What the interpreter passes to the function in a slot. -/
def slotValues : TSlot → Args → List V
  | .nb .inplacePower, .three a b _ => [.ptr (some a), .ptr (some b)]
  | _, .one a => [.ptr (some a)]
  | _, .two a b => [.ptr (some a), .ptr (some b)]
  | _, .three a b c => [.ptr (some a), .ptr (some b), .ptr c]
  | _, .item a i => [.ptr (some a), .int i]
  | _, .assItem a i v => [.ptr (some a), .int i, .ptr v]
  | _, .cmp a b op => [.ptr (some a), .ptr (some b), .lit op]

theorem passed_slot {s : TSlot} {f : CFn} (h : proxyOwn s = some f) (args : Args) : passed f args = slotValues s args := by
  cases s with
  | nb m => cases m <;> cases h <;> cases args <;> rfl
  | sq m => cases m <;> cases h <;> cases args <;> rfl
  | mp m => cases m <;> cases h <;> cases args <;> rfl
  | am m => cases h
  | bf m => cases h
  | tp m => cases m <;> cases h <;> cases args <;> rfl

/-! ### Programs that only convert their result -/

theorem map_ok {x : C α} {r : α → V} {m m' : Mem} {v : V} (h : (x >>= fun a => pure (r a)) m = .ok v m') :
    ∃ a, x m = .ok a m' ∧ v = r a := by
  cases hx : x m with
  | ok a m1 =>
    replace h := (C.ok_bind hx).symm.trans h
    cases h
    exact ⟨a, rfl, rfl⟩
  | fault f m1 =>
    replace h := (C.fault_bind hx).symm.trans h
    cases h
  | diverge =>
    have : (x >>= fun a => pure (r a)) m = .diverge := by
      show (match x m with | .ok a m => (pure (r a) : C V) m | .fault f m => .fault f m | .diverge => .diverge) = Out.diverge
      rw [hx]
    rw [this] at h
    cases h

theorem map_fault {x : C α} {r : α → V} {m m' : Mem} {f : Fault} (h : (x >>= fun a => pure (r a)) m = .fault f m') :
    x m = .fault f m' := by
  cases hx : x m with
  | ok a m1 =>
    replace h := (C.ok_bind hx).symm.trans h
    cases h
  | fault f m1 =>
    replace h := (C.fault_bind hx).symm.trans h
    cases h
    rfl
  | diverge =>
    have : (x >>= fun a => pure (r a)) m = .diverge := by
      show (match x m with | .ok a m => (pure (r a) : C V) m | .fault f m => .fault f m | .diverge => .diverge) = Out.diverge
      rw [hx]
    rw [this] at h
    cases h

/-- The object that is returned, and whether the value means failure. -/
def asPtr : V → Ptr
  | .ptr p => p
  | _ => none

def asFailed (neg : Int → Bool) : V → Bool
  | .int i => neg i
  | _ => true

/-! ### Memory and exceptions -/

/-- **Memory.** The functions of the tables that return an object, run from source, keep the rules of C57-C59: reference counts
are balanced up to the leaks listed there, invalid accesses have the excuses listed there, and the error indicator agrees with the result. -/
theorem C87_safe_objects (hH : H.Ok) {f : CFn} {args : Args} {x : C Ptr} (hx : runObj H.E H.fuel f args = some x)
    (hh : args.Held H.E) {d : Nat} (hd : 6 ≤ d) :
    Balanced H.E (run H d (cname f) (passed f args)) asPtr ∧ MemorySafe (run H d (cname f) (passed f args)) ∧
      Truthful (run H d (cname f) (passed f args)) (fun v => (asPtr v).isNone) := by
  obtain ⟨h1, h2, h3⟩ := C74_safe_objects hH.kept hx hh
  rw [C87_objects hH f args x hx hh d hd]
  refine ⟨?_, ?_, ?_⟩
  · intro m v m' hl he h
    obtain ⟨a, ha, rfl⟩ := map_ok h
    exact h1 m a m' hl he ha
  · intro m f m' hl he h
    exact h2 m f m' hl he (map_fault h)
  · intro m v m' hl he h
    obtain ⟨a, ha, rfl⟩ := map_ok h
    exact h3 m a m' hl he ha

/-- The same for functions that return a number. -/
theorem C87_safe_numbers (hH : H.Ok) {f : CFn} {args : Args} {x : C Int} (hx : runInt H.E f args = some x)
    (hh : args.Held H.E) (hn : ∀ c o, ¬ (f = .checkerCheckInt ∧ args = .three c o none)) {d : Nat} (hd : 6 ≤ d) :
    Balanced H.E (run H d (cname f) (passed f args)) asPtr ∧ MemorySafe (run H d (cname f) (passed f args)) ∧
      Truthful (run H d (cname f) (passed f args)) (asFailed (if f = .hash then fun i => decide (i = -1) else negative)) := by
  obtain ⟨h1, h2, h3⟩ := C74_safe_ints hH.kept hx hh fun c o hf ha => hn c o ⟨hf, ha⟩
  rw [C87_numbers hH f args x hx hh hn d hd]
  refine ⟨?_, ?_, ?_⟩
  · intro m v m' hl he h
    obtain ⟨a, ha, rfl⟩ := map_ok h
    exact h1 m a m' hl he ha
  · intro m f m' hl he h
    exact h2 m f m' hl he (map_fault h)
  · intro m v m' hl he h
    obtain ⟨a, ha, rfl⟩ := map_ok h
    exact h3 m a m' hl he ha

/-! ### Mediation -/

/-- **Mediation.** Whatever other code does, the function that the source puts into a slot of proxies carries out nothing for the
user before the right checker has granted the right name; comparison alone needs no permission. -/
theorem C87_mediated_objects (hH : H.Ok) {s : TSlot} {n : String} {f : CFn} {args : Args} {x : C Ptr} (hs : srcProxy s = some n)
    (hf : proxyOwn s = some f) (hx : runObj H.E H.fuel f args = some x) (hh : args.Held H.E) {d : Nat} (hd : 6 ≤ d) :
    (∃ self meth name u l, Demands H.E s args self meth name u l ∧ Mediated H.E (run H d n (slotValues s args)) self meth name u l) ∨
    (∃ i self name u l, DemandsAt H.E s args i self name u l ∧ MediatedAt H.E i (run H d n (slotValues s args)) self name u l) ∨
    (∃ u l, DemandsNothing H.E s args u l ∧ Direct (run H d n (slotValues s args)) u l) ∨
    args.NoProxy H.E ∧ Idle (run H d n (slotValues s args)) := by
  obtain ⟨f', hf', rfl⟩ := srcProxy_own hs
  obtain rfl : f = f' := Option.some.inj (hf.symm.trans hf')
  rw [← passed_slot hf args, C87_objects hH f args x hx hh d hd]
  rcases C74_mediated_objects (E := H.E) (β := Unit) (fun _ => none) ((ready_inl _ _ _ _).2 hf) hx with
    ⟨a1, a2, a3, a4, a5, h1, h2⟩ | ⟨a1, a2, a3, a4, a5, h1, h2⟩ | ⟨a1, a2, h1, h2⟩ | ⟨h1, h2⟩
  · refine .inl ⟨a1, a2, a3, a4, a5, h1, fun m v m' h => ?_⟩
    obtain ⟨a, ha, rfl⟩ := map_ok h
    exact h2 m a m' ha
  · refine .inr (.inl ⟨a1, a2, a3, a4, a5, h1, fun m v m' h => ?_⟩)
    obtain ⟨a, ha, rfl⟩ := map_ok h
    exact h2 m a m' ha
  · refine .inr (.inr (.inl ⟨a1, a2, h1, fun m v m' h => ?_⟩))
    obtain ⟨a, ha, rfl⟩ := map_ok h
    exact h2 m a m' ha
  · refine .inr (.inr (.inr ⟨h1, fun m v m' h => ?_⟩))
    obtain ⟨a, ha, rfl⟩ := map_ok h
    exact h2 m a m' ha

/-- The same for functions that return a number: `hash` and truth need no permission. -/
theorem C87_mediated_numbers (hH : H.Ok) {s : TSlot} {n : String} {f : CFn} {args : Args} {x : C Int} (hs : srcProxy s = some n)
    (hf : proxyOwn s = some f) (hx : runInt H.E f args = some x) (hh : args.Held H.E) {d : Nat} (hd : 6 ≤ d) :
    (∃ self meth name u l, Demands H.E s args self meth name u l ∧ Mediated H.E (run H d n (slotValues s args)) self meth name u l) ∨
    (∃ i self name u l, DemandsAt H.E s args i self name u l ∧ MediatedAt H.E i (run H d n (slotValues s args)) self name u l) ∨
    (∃ u l, DemandsNothing H.E s args u l ∧ Direct (run H d n (slotValues s args)) u l) := by
  obtain ⟨f', hf', rfl⟩ := srcProxy_own hs
  obtain rfl : f = f' := Option.some.inj (hf.symm.trans hf')
  have hn : ∀ c o, ¬ (f = .checkerCheckInt ∧ args = .three c o none) := by
    rintro c o ⟨rfl, -⟩
    cases s with
    | nb m => cases m <;> cases hf
    | sq m => cases m <;> cases hf
    | mp m => cases m <;> cases hf
    | am m => cases hf
    | bf m => cases hf
    | tp m => cases m <;> cases hf
  rw [← passed_slot hf args, C87_numbers hH f args x hx hh hn d hd]
  rcases C74_mediated_ints (E := H.E) (β := Unit) (fun _ => none) ((ready_inl _ _ _ _).2 hf) hx with
    ⟨a1, a2, a3, a4, a5, h1, h2⟩ | ⟨a1, a2, a3, a4, a5, h1, h2⟩ | ⟨a1, a2, h1, h2⟩
  · refine .inl ⟨a1, a2, a3, a4, a5, h1, fun m v m' h => ?_⟩
    obtain ⟨a, ha, rfl⟩ := map_ok h
    exact h2 m a m' ha
  · refine .inr (.inl ⟨a1, a2, a3, a4, a5, h1, fun m v m' h => ?_⟩)
    obtain ⟨a, ha, rfl⟩ := map_ok h
    exact h2 m a m' ha
  · refine .inr (.inr ⟨a1, a2, h1, fun m v m' h => ?_⟩)
    obtain ⟨a, ha, rfl⟩ := map_ok h
    exact h2 m a m' ha

/-! ### Sessions -/

/-- A step of untrusted code as in `Steps`, the functions being those that the source puts into the slots and their runs those
of the source. -/
inductive SourceSteps (H : Host) (I : Interp A) : Stage A → Stage A → Prop
  | object {m m' s s' held p op sl args n d r l} : p ∈ held → IsProxy (I.val p) → Asks H.E I p op sl args →
      HeldVals I held (opArgs op) → args.Held H.E → srcProxy sl = some n → 6 ≤ d →
      run H d n (slotValues sl args) m = .ok (.ptr r) m' → m'.asked = l.reverse ++ m.asked → Explains H.E I s l s' →
      SourceSteps H I (m, s, held) (m', s', r.toList ++ held)
  | int {m m' s s' held p op sl args n d i l} : p ∈ held → IsProxy (I.val p) → AsksInt I p op sl args →
      HeldVals I held (opArgs op) → args.Held H.E → srcProxy sl = some n → 6 ≤ d →
      run H d n (slotValues sl args) m = .ok (.int i) m' → m'.asked = l.reverse ++ m.asked → Explains H.E I s l s' →
      SourceSteps H I (m, s, held) (m', s', held)
  | method {m m' s s' held p d r l} : p ∈ held → IsProxy (I.val p) → H.E.held p = true → 6 ≤ d →
      run H d "proxy_length_hint" [.ptr (some p)] m = .ok (.ptr r) m' → m'.asked = l.reverse ++ m.asked → Explains H.E I s l s' →
      SourceSteps H I (m, s, held) (m', s', r.toList ++ held)
  | constant {m s held o} : Basic (I.val o) → SourceSteps H I (m, s, held) (m, s, o :: held)
  | elsewhere {m m' s s' held} : protection s' = protection s → Fields H.E I m' s' →
      SourceSteps H I (m, s, held) (m', s', held)

/-- Any number of steps. -/
inductive SourceSessions (H : Host) (I : Interp A) : Stage A → Stage A → Prop
  | nil {a} : SourceSessions H I a a
  | cons {a b c} : SourceSessions H I a b → SourceSteps H I b c → SourceSessions H I a c

/-- What the source does in a slot for an operation is what the model's program does. -/
theorem source_object (hH : H.Ok) (F : Fits H.E I) (hfuel : H.fuel ≤ I.X.fuel) {p : Nat} (hp : IsProxy (I.val p)) {op : POp} {sl : TSlot}
    {args : Args} {n : String} {d : Nat} (ha : Asks H.E I p op sl args) (hh : args.Held H.E) (hs : srcProxy sl = some n) (hd : 6 ≤ d)
    {m m' : Mem} {v : V} (hr : run H d n (slotValues sl args) m = .ok v m') (base : TSlot → Option β) :
    ∃ f x r, ready proxyOwn base sl = some (.inl f) ∧ runObj H.E H.fuel f args = some x ∧ v = .ptr r ∧ x m = .ok r m' := by
  obtain ⟨i, w, c, hv⟩ := hp
  obtain ⟨f, x, h1, h2, -⟩ := C74_objects F hv base ha H.fuel hfuel
  have hf := (ready_inl _ _ _ _).1 h1
  obtain ⟨f', hf', rfl⟩ := srcProxy_own hs
  obtain rfl : f = f' := Option.some.inj (hf.symm.trans hf')
  rw [← passed_slot hf args, C87_objects hH f args x h2 hh d hd] at hr
  obtain ⟨r, hx, rfl⟩ := map_ok hr
  exact ⟨f, x, r, h1, h2, rfl, hx⟩

theorem source_int (hH : H.Ok) (F : Fits H.E I) {p : Nat} (hp : IsProxy (I.val p)) {op : POp} {sl : TSlot}
    {args : Args} {n : String} {d : Nat} (ha : AsksInt I p op sl args) (hh : args.Held H.E) (hs : srcProxy sl = some n) (hd : 6 ≤ d)
    {m m' : Mem} {v : V} (hr : run H d n (slotValues sl args) m = .ok v m') (base : TSlot → Option β) :
    ∃ f x i, ready proxyOwn base sl = some (.inl f) ∧ runInt H.E f args = some x ∧ v = .int i ∧ x m = .ok i m' := by
  obtain ⟨i, w, c, hv⟩ := hp
  obtain ⟨f, x, h1, h2, -⟩ := C74_ints F hv base ha
  have hf := (ready_inl _ _ _ _).1 h1
  obtain ⟨f', hf', rfl⟩ := srcProxy_own hs
  obtain rfl : f = f' := Option.some.inj (hf.symm.trans hf')
  have hn : ∀ c o, ¬ (f = .checkerCheckInt ∧ args = .three c o none) := by
    rintro c o ⟨rfl, -⟩
    cases ha <;> first | cases hf | (rename_i h; rcases h with rfl | rfl <;> cases hf)
  rw [← passed_slot hf args, C87_numbers hH f args x h2 hh hn d hd] at hr
  obtain ⟨r, hx, rfl⟩ := map_ok hr
  exact ⟨f, x, r, h1, h2, rfl, hx⟩

/-- Sessions with the source are sessions with the model. -/
theorem C87_sessions (hH : H.Ok) (F : Fits H.E I) (hfuel : H.fuel ≤ I.X.fuel) (base : TSlot → Option β) {a b : Stage A}
    (h : SourceSessions H I a b) : Sessions H.E I base a b := by
  induction h with
  | nil => exact .nil
  | cons _ hs ih =>
    refine .cons ih ?_
    cases hs with
    | object hp hpp ha hv hh hs hd hr hl he =>
      obtain ⟨f, x, r, h1, h2, h3, h4⟩ := source_object hH F hfuel hpp ha hh hs hd hr base
      cases h3
      exact .object hp hpp ha hv hfuel h1 h2 h4 hl he
    | int hp hpp ha hv hh hs hd hr hl he =>
      obtain ⟨f, x, r, h1, h2, h3, h4⟩ := source_int hH F hpp ha hh hs hd hr base
      cases h3
      exact .int hp hpp ha hv h1 h2 h4 hl he
    | method hp hpp hh hd hr hl he =>
      rw [(C87_length_hint _ hh).call (by omega)] at hr
      obtain ⟨r, hx, h3⟩ := map_ok hr
      cases h3
      exact .method (fuel := 0) hp hpp rfl rfl hx hl he
    | constant hb => exact .constant hb
    | elsewhere h1 h2 => exact .elsewhere h1 h2

/-- **From the configuration to the source.** The package is imported, a configuration is carried out, and an application that relies
on it hands out compiled proxies made by the registry.  Untrusted code works with them through the interpreter, which calls
the functions that the C source puts into the slots, and these are run from their source.  Then every call that such a
function makes on behalf of the user is permitted by the directives and the interaction; or it is one of the unchecked operations. -/
theorem C87_configured (B : Ext) (a : A) (ds : List Directive) (hr : Ready ds (initial B a)) (hl : ∀ d ∈ ds, ∀ e, ¬ Raises d e) :
    ∃ s0, configure ds (initial B a) = (.ok (), s0) ∧ ∃ σ, Effects ds (storeOf (initial B a)) σ ∧
      (∀ τ, Effects ds (storeOf (initial B a)) τ → τ = σ) ∧
      ∀ (H : Host) (I : Interp A), H.Ok → Fits H.E I → H.fuel ≤ I.X.fuel → Relies I.X.W s0 →
        ∀ m0 start held m s held', protection start = protection s0 → (∀ o ∈ held, Issued I.X.W s0.reg (I.val o)) →
          Fields H.E I m0 start → SourceSessions H I (m0, start, held) (m, s, held') →
          ∀ p ∈ held', IsProxy (I.val p) → ∀ op, HeldVals I held' (opArgs op) →
            (∀ sl args n d v m' l, (Asks H.E I p op sl args ∨ AsksInt I p op sl args) → args.Held H.E → srcProxy sl = some n → 6 ≤ d →
              run H d n (slotValues sl args) m = .ok v m' → m'.asked = l.reverse ++ m.asked → OnlyPermitted H.E I σ s p op l) ∧
            ∀ d v m' l, op = .lengthHint → H.E.held p = true → 6 ≤ d →
              run H d "proxy_length_hint" [.ptr (some p)] m = .ok v m' → m'.asked = l.reverse ++ m.asked → OnlyPermitted H.E I σ s p op l := by
  obtain ⟨s0, h1, σ, h2, h3, h4⟩ := C75_configured (β := Unit) B a ds hr hl
  refine ⟨s0, h1, σ, h2, h3, ?_⟩
  intro H I hH F hfuel hX m0 start held m s held' hst hh hf hses p hp hpp op harg
  obtain ⟨k1, k2, k3⟩ := h4 H.E I (fun _ => none) F hX m0 start held m s held' hst hh hf (C87_sessions hH F hfuel _ hses) p hp hpp op harg
  refine ⟨?_, ?_⟩
  · rintro sl args n d v m' l (hask | hask) hargs hs hd hrun hl
    · obtain ⟨f, x, r, j1, j2, -, j4⟩ := source_object hH F hfuel hpp hask hargs hs hd hrun (fun _ => (none : Option Unit))
      exact k1 sl args f H.fuel x r m' l hask hfuel j1 j2 j4 hl
    · obtain ⟨f, x, r, j1, j2, -, j4⟩ := source_int hH F hpp hask hargs hs hd hrun (fun _ => (none : Option Unit))
      exact k2 sl args f x r m' l hask j1 j2 j4 hl
  · intro d v m' l ho hheld hd hrun hl
    rw [(C87_length_hint _ hheld).call (by omega)] at hrun
    obtain ⟨r, hx, -⟩ := map_ok hrun
    exact k3 .lengthHint 0 _ r m' l ho rfl rfl hx hl

/-- Conversely, what is permitted is done. -/
theorem C87_carried_out (B : Ext) (a : A) (ds : List Directive) (hr : Ready ds (initial B a)) (hl : ∀ d ∈ ds, ∀ e, ¬ Raises d e) :
    ∃ s0, configure ds (initial B a) = (.ok (), s0) ∧ ∃ σ, Effects ds (storeOf (initial B a)) σ ∧
      (∀ τ, Effects ds (storeOf (initial B a)) τ → τ = σ) ∧
      ∀ (H : Host) (I : Interp A), H.Ok → Fits H.E I → H.fuel ≤ I.X.fuel → Relies I.X.W s0 →
        ∀ m0 start held m s held', protection start = protection s0 → (∀ o ∈ held, Issued I.X.W s0.reg (I.val o)) →
          Fields H.E I m0 start → SourceSessions H I (m0, start, held) (m, s, held') →
          ∀ p ∈ held', IsProxy (I.val p) → ∀ op, HeldVals I held' (opArgs op) → ∀ ro, Permitted I.X σ s (I.val p) op ro →
            ∀ sl args n d v m' l s', (Asks H.E I p op sl args ∨ AsksInt I p op sl args) → args.Held H.E → srcProxy sl = some n → 6 ≤ d →
              run H d n (slotValues sl args) m = .ok v m' → m'.asked = l.reverse ++ m.asked → Explains H.E I s l s' → CarriedOut H.E I ro l := by
  obtain ⟨s0, h1, σ, h2, h3, h4⟩ := C75_carried_out (β := Unit) B a ds hr hl
  refine ⟨s0, h1, σ, h2, h3, ?_⟩
  intro H I hH F hfuel hX m0 start held m s held' hst hh hf hses p hp hpp op harg ro hper
  obtain ⟨k1, k2, -⟩ := h4 H.E I (fun _ => none) F hX m0 start held m s held' hst hh hf (C87_sessions hH F hfuel _ hses) p hp hpp op harg ro hper
  rintro sl args n d v m' l s' (hask | hask) hargs hs hd hrun hl he
  · obtain ⟨f, x, r, j1, j2, -, j4⟩ := source_object hH F hfuel hpp hask hargs hs hd hrun (fun _ => (none : Option Unit))
    exact k1 sl args f H.fuel x r m' l s' hask hfuel j1 j2 j4 hl he
  · obtain ⟨f, x, r, j1, j2, -, j4⟩ := source_int hH F hpp hask hargs hs hd hrun (fun _ => (none : Option Unit))
    exact k2 sl args f x r m' l s' hask j1 j2 j4 hl he

/-! ### Cases -/

namespace CSourceSample
open CSample

/-- The environment of C57-C65 as a host. -/
def host (l : List Reply) : Host where
  E := sampleEnv (answers l)
  fuel := 5
  noMapping := fun _ => false
  noNumber := fun _ => false

theorem host_ok (l : List Reply) : (host l).Ok :=
  ⟨sampleEnv_kept _, nofun, nofun, nofun⟩

/-- The result and the calls. -/
def seenIn : Out V → Option (Ptr × List (Fn × List Nat))
  | .ok v m => some (asPtr v, (m.asked.map fun k => (k.fn, k.args)).reverse)
  | _ => none

/-- `proxy.title`, run from source: the public permission is found, the attribute is read, and a new proxy made for it. -/
example : seenIn (run (host goodAnswers) 6 "proxy_getattro" [.ptr (some 4), .ptr (some 21)] sampleMem) = some (some 301,
    [(.dictGet, [150, 21]), (.user .getAttr, [12, 21]), (.getAttr, [300, 20]), (.dictGet, [9, 11]), (.call, [14, 300, 13]),
     (.destroy, [13]), (.destroy, [300])]) := by decide +kernel

/-- `len(proxy)` is refused. -/
example : seenIn (run (host denied) 6 "proxy_length" [.ptr (some 4)] sampleMem) = some (none,
    [(.dictGet, [150, 20]), (.getAttr, [5, 20]), (.callMethod, [170, 20, 22, 12]), (.destroy, [170]), (.isTrue, [171]), (.destroy, [171]),
     (.tuple, [12, 20, 22]), (.destroy, [180])]) := by decide +kernel

example : srcProxy (.tp .getattro) = some "proxy_getattro" ∧ srcProxy (.sq .length) = some "proxy_length" ∧
    srcProxy (.nb .index) = none ∧ srcChecker (.mp .subscript) = some "Checker_proxy" := by decide +kernel

/-- The theorems apply to these runs. -/
example : MemorySafe (run (host goodAnswers) 6 "proxy_getattro" [.ptr (some 4), .ptr (some 21)]) :=
  (C87_safe_objects (f := .getattro) (args := .two 4 21) (host_ok _) rfl ⟨rfl, rfl⟩ (Nat.le_refl 6)).2.1

example : (∃ self meth name u l, Demands (host denied).E (.sq .length) (.one 4) self meth name u l ∧
      Mediated (host denied).E (run (host denied) 6 "proxy_length" [.ptr (some 4)]) self meth name u l) ∨
    (∃ i self name u l, DemandsAt (host denied).E (.sq .length) (.one 4) i self name u l ∧
      MediatedAt (host denied).E i (run (host denied) 6 "proxy_length" [.ptr (some 4)]) self name u l) ∨
    (∃ u l, DemandsNothing (host denied).E (.sq .length) (.one 4) u l ∧ Direct (run (host denied) 6 "proxy_length" [.ptr (some 4)]) u l) :=
  C87_mediated_numbers (s := .sq .length) (f := .length) (args := .one 4) (host_ok _) (by decide +kernel) rfl rfl rfl (Nat.le_refl 6)

end CSourceSample

end ZS.Props

/-! ## The run of C75, from source -/

namespace ZS.CM.ShopC
open ZS.Props ZS.CS ZS.Spec ZS.CM.Sample

noncomputable def H : Host where
  E := E
  fuel := 5
  noMapping := fun _ => false
  noNumber := fun _ => false

theorem host_ok : H.Ok :=
  ⟨by constructor <;> intros <;> rfl, nofun, nofun, nofun⟩

/-- Reading `secret`, run from source. -/
theorem source_run : ∃ m', CS.run H 6 "proxy_getattro" [.ptr (some p), .ptr (some (num (.str 0 "secret")))] mem =
      .ok (.ptr (some (num Shop.inner))) m' ∧ m'.asked = calls.reverse ++ mem.asked := by
  have hr := run
  rw [C87_getattro host_ok p _ rfl 6 (by decide)]
  cases ho : proxyGetattro E 5 p (num (.str 0 "secret")) mem with
  | fault f m => rw [ho] at hr; cases hr
  | diverge => rw [ho] at hr; cases hr
  | ok a m' =>
    rw [ho] at hr
    simp only [seen, Option.some.injEq, Prod.mk.injEq] at hr
    obtain ⟨rfl, hr⟩ := hr
    refine ⟨m', ?_, by rw [← hr]; simp [mem]⟩
    exact C.ok_bind (show proxyGetattro H.E H.fuel p (num (.str 0 "secret")) mem = _ from ho)

theorem source_session : ∃ m', SourceSessions H I (mem, Shop.now, [p]) (m', sD, [num Shop.inner, p]) := by
  obtain ⟨m', h1, h2⟩ := source_run
  have ha : Asks H.E I p (.getattr "secret" false) (.tp .getattro) (.two p (num (.str 0 "secret"))) := asks
  exact ⟨m', .cons .nil (.object (H := H) (List.mem_singleton.2 rfl) ⟨_, _, _, val_p⟩ ha (fun v hv => by cases hv) ⟨rfl, rfl⟩
    (by decide +kernel : srcProxy (.tp .getattro) = some "proxy_getattro") (Nat.le_refl 6) h1 h2 explained)⟩

/-- The hypotheses of `C87_configured` and `C87_carried_out` are met. -/
example : Ready Shop.config (initial Ex.ext ()) ∧ (∀ d ∈ Shop.config, ∀ e, ¬ Raises d e) ∧ H.Ok ∧ Fits H.E I ∧ H.fuel ≤ I.X.fuel ∧
    Relies I.X.W Shop.s0 ∧ Fields H.E I mem Shop.now ∧ (∃ m', SourceSessions H I (mem, Shop.now, [p]) (m', sD, [num Shop.inner, p])) ∧
    (∃ m', CS.run H 6 "proxy_getattro" (slotValues (.tp .getattro) (.two p (num (.str 0 "secret")))) mem =
      .ok (.ptr (some (num Shop.inner))) m' ∧ m'.asked = calls.reverse ++ mem.asked) ∧ Explains H.E I Shop.now calls sD :=
  ⟨Shop.ready, Shop.fine, host_ok, fits _ rfl _, by decide, Shop.relies _, fields _ _ _, source_session, source_run, explained⟩

end ZS.CM.ShopC
