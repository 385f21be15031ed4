import Verif.Spec.Slots
import Verif.Props.CRefine
import Verif.Props.CMem
import Verif.Props.CMediation

/-!
# C74: the tables of the types

The finished types have, for every operation of the language, the function written for it; the slots
that are left to the base type are exactly the listed ones.
-/

namespace ZS.Props
open ZS ZS.CM

variable {A : Type} {E : Env} {I : Interp A} {β : Type}

/-! ### `_Proxy` -/

/-- C74: whatever the base type offers, the interpreter finds, for each operation on a proxy whose function
returns an object, a function of this package, and the function does what the operation is to do. -/
theorem C74_objects (F : Fits E I) {p i : Nat} {w c : Val} (hp : I.val p = .proxy i w c) (base : TSlot → Option β)
    {op : POp} {s : TSlot} {args : Args} (ha : Asks E I p op s args) (fuel : Nat) (hf : fuel ≤ I.X.fuel) :
    ∃ f x, ready proxyOwn base s = some (.inl f) ∧ runObj E fuel f args = some x ∧
      Refines E I (Fields E I) x (pop I.X (I.val p) op) (ObjResult E I) := by
  cases ha with
  | getattr inside hn => exact ⟨.getattro, _, rfl, rfl, C63_objects F hp (.getattr inside hf hn)⟩
  | unop u hu =>
    have hs := C63_objects F hp (.unary u hf hu)
    simp only [List.mem_cons, List.not_mem_nil, or_false] at hu
    rcases hu with rfl | rfl | rfl | rfl <;> exact ⟨.un _, _, rfl, rfl, hs⟩
  | number u hu hn =>
    have hs := C63_objects F hp (.number u hf hu hn)
    simp only [List.mem_cons, List.not_mem_nil, or_false] at hu
    rcases hu with rfl | rfl <;> exact ⟨.un _, _, rfl, rfl, hs⟩
  | call => exact ⟨.call, _, rfl, rfl, C63_objects F hp (.call hf)⟩
  | getitem => exact ⟨.getitem, _, rfl, rfl, C63_objects F hp (.getitem hf)⟩
  | igetitem => exact ⟨.igetitem, _, rfl, rfl, C63_objects F hp (.igetitem hf)⟩
  | iter => exact ⟨.iter, _, rfl, rfl, C63_objects F hp (.iter hf)⟩
  | next => exact ⟨.iternext, _, rfl, rfl, C63_objects F hp (.next hf)⟩
  | @binL o b =>
    have hs := C63_objects F hp (.binL (o := o) b hf)
    cases b <;> exact ⟨.bin _, _, rfl, rfl, hs⟩
  | @binR o b =>
    have hs := C63_objects F hp (.binR (o := o) b hf)
    cases b <;> exact ⟨.bin _, _, rfl, rfl, hs⟩
  | pow => exact ⟨.pow, _, rfl, rfl, C63_objects F hp (.pow hf)⟩
  | rpow => exact ⟨.pow, _, rfl, rfl, C63_objects F hp (.rpow hf)⟩
  | pow3 => exact ⟨.pow, _, rfl, rfl, C63_objects F hp (.pow3 hf)⟩
  | @inplace o b hb =>
    have hs := C63_objects F hp (.inplace (o := o) b hf hb)
    cases b <;> first | exact absurd rfl hb | exact ⟨.inpl _, _, rfl, rfl, hs⟩
  | ipow => exact ⟨.inpl .ipow, _, rfl, rfl, C63_objects F hp (.ipow hf)⟩
  | compare b => exact ⟨.richcompare, _, rfl, rfl, C63_objects F hp (.compare b hf)⟩
  | str => exact ⟨.str, _, rfl, rfl, C63_objects F hp .str⟩
  | repr => exact ⟨.repr, _, rfl, rfl, C63_objects F hp .repr⟩

/-- C74 for the functions that return a number. -/
theorem C74_ints (F : Fits E I) {p i : Nat} {w c : Val} (hp : I.val p = .proxy i w c) (base : TSlot → Option β)
    {op : POp} {s : TSlot} {args : Args} (ha : AsksInt I p op s args) :
    ∃ f x, ready proxyOwn base s = some (.inl f) ∧ runInt E f args = some x ∧
      Refines E I (Fields E I) x (pop I.X (I.val p) op) (IntResult E I) := by
  cases ha with
  | setattr hn => exact ⟨.setattro, _, rfl, rfl, C63_ints F hp (.setattr hn)⟩
  | delattr hn => exact ⟨.setattro, _, rfl, rfl, C63_ints F hp (.delattr hn)⟩
  | setitem => exact ⟨.setitem, _, rfl, rfl, C63_ints F hp .setitem⟩
  | delitem => exact ⟨.setitem, _, rfl, rfl, C63_ints F hp .delitem⟩
  | isetitem => exact ⟨.isetitem, _, rfl, rfl, C63_ints F hp .isetitem⟩
  | idelitem => exact ⟨.isetitem, _, rfl, rfl, C63_ints F hp .idelitem⟩
  | contains => exact ⟨.contains, _, rfl, rfl, C63_ints F hp .contains⟩
  | len s hs => rcases hs with rfl | rfl <;> exact ⟨.length, _, rfl, rfl, C63_ints F hp .len⟩
  | hash => exact ⟨.hash, _, rfl, rfl, C63_ints F hp .hash⟩
  | bool => exact ⟨.bool, _, rfl, rfl, C63_ints F hp .bool⟩

/-- C74: the method `__length_hint__` is the only one of the type, and unchecked. -/
theorem C74_length_hint (F : Fits E I) {p i : Nat} {w c : Val} (hp : I.val p = .proxy i w c) (fuel : Nat) :
    proxyMethods.map (·.1) = ["__length_hint__"] ∧
    ∃ f x, proxyMethods.lookup "__length_hint__" = some f ∧ runObj E fuel f (.one p) = some x ∧
      Refines E I (Fields E I) x (pop I.X (I.val p) .lengthHint) (ObjResult E I) ∧
      Direct x (.method "__length_hint__") [E.wrapped p] :=
  ⟨rfl, .lengthHint, _, rfl, rfl, C63_objects F hp .lengthHint, C64_unchecked .lengthHint⟩

/-- Whether a slot of the finished type is the type's own does not depend on the base. -/
theorem ready_inl (own : TSlot → Option CFn) (base : TSlot → Option β) (s : TSlot) (f : CFn) :
    ready own base s = some (.inl f) ↔ own s = some f := by
  have hp : ∀ o (b : Option β), pick o b = some (.inl f) ↔ o = some f := by
    intro o b; cases o <;> cases b <;> simp [pick]
  have hm : ∀ o : Option CFn, o.map (Sum.inl (β := β)) = some (.inl f) ↔ o = some f := by
    intro o; cases o <;> simp
  have ht : ∀ a b s, s = a ∨ s = b → (together own base a b s = some (.inl f) ↔ own s = some f) := by
    intro a b s h
    unfold together
    split
    · next h1 =>
      have : own s = none := by rcases h with rfl | rfl; exacts [h1.1, h1.2]
      rw [this]; cases base s <;> simp
    · exact hm _
  cases s with
  | nb m => cases m <;> first | exact hp _ _ | exact hm _
  | sq m => cases m <;> first | exact hp _ _ | exact hm _
  | mp m => cases m <;> exact hp _ _
  | am m => cases m <;> exact hp _ _
  | bf m => cases m <;> exact hp _ _
  | tp m =>
    cases m <;> first
      | exact hp _ _
      | exact hm _
      | exact ht _ _ _ (.inl rfl)
      | exact ht _ _ _ (.inr rfl)
      | (simp only [ready]; split; exacts [hm _, hp _ _])

/-- C74: the functions that proxies take from the base type are those in the listed slots. -/
theorem C74_left (base : TSlot → Option β) (s : TSlot) (b : β) (hs : ∀ m ∈ noFunction, s ≠ .tp m) :
    ready proxyOwn base s = some (.inr b) ↔ s ∈ leftToBase ∧ base s = some b := by
  have key : ∀ (l : Prop) (o : Option β), l → (o.map Sum.inr = some (.inr b : CFn ⊕ β) ↔ l ∧ o = some b) := by
    intro l o hl; cases o <;> simp [hl]
  cases s with
  | nb m => cases m <;> first
      | exact key _ _ (by decide)
      | exact ⟨(fun h => by cases h), fun h => absurd h.1 (by decide)⟩
  | sq m => cases m <;> first
      | exact key _ _ (by decide)
      | exact ⟨(fun h => by cases h), fun h => absurd h.1 (by decide)⟩
  | mp m => cases m <;> first
      | exact key _ _ (by decide)
      | exact ⟨(fun h => by cases h), fun h => absurd h.1 (by decide)⟩
  | am m => cases m <;> exact key _ _ (by decide)
  | bf m => cases m <;> exact key _ _ (by decide)
  | tp m => cases m <;> first
      | exact key _ _ (by decide)
      | exact ⟨(fun h => by cases h), fun h => absurd h.1 (by decide)⟩
      | exact absurd rfl (hs _ (by decide))

theorem checked2 {fuel x y : Nat} (b : BinName) :
    (∃ self meth name u l, Demands E (.nb (binSlot b)) (.two x y) self meth name u l ∧
      Mediated E (check2 E fuel x y (E.const b.op) (E.const b.rop) fun x y => api E (.binary b.op) [x, y])
        self meth name u l) ∨
    Args.NoProxy E (.two x y) ∧
      Idle (check2 E fuel x y (E.const b.op) (E.const b.rop) fun x y => api E (.binary b.op) [x, y]) := by
  cases hx : E.isProxy x with
  | true => exact .inl ⟨_, _, _, _, _, .binL b hx, C64_objects (.binL _ _ hx)⟩
  | false =>
    cases hy : E.isProxy y with
    | true => exact .inl ⟨_, _, _, _, _, .binR b hx hy, C64_objects (.binR _ _ hx hy)⟩
    | false => exact .inr ⟨⟨hx, hy⟩, C64_passive (.binary hx hy)⟩

theorem checked3 {fuel x y : Nat} {md : Ptr} :
    (∃ self meth name u l, Demands E (.nb .power) (.three x y md) self meth name u l ∧
      Mediated E (proxyPow E fuel x y md) self meth name u l) ∨
    Args.NoProxy E (.three x y md) ∧ Idle (proxyPow E fuel x y md) := by
  cases hx : E.isProxy x with
  | true => exact .inl ⟨_, _, _, _, _, .pow hx, C64_objects (.pow hx)⟩
  | false =>
    cases hy : E.isProxy y with
    | true => exact .inl ⟨_, _, _, _, _, .rpow hx hy, C64_objects (.rpow hx hy)⟩
    | false =>
      cases md with
      | none => exact .inr ⟨⟨hx, hy, fun _ h => nomatch h⟩, C64_passive (.pow hx hy fun _ h => nomatch h)⟩
      | some z =>
        cases hz : E.isProxy z with
        | true => exact .inl ⟨_, _, _, _, _, .pow3 hx hy hz, C64_objects (.pow3 hx hy hz)⟩
        | false =>
          have h : ∀ o, some z = some o → E.isProxy o = false := by rintro _ ⟨⟩; exact hz
          exact .inr ⟨⟨hx, hy, h⟩, C64_passive (.pow hx hy h)⟩

/-- The functions in the slots of proxies. -/
inductive SlotOwn : TSlot → CFn → Prop
  | bin (b : BinName) : SlotOwn (.nb (binSlot b)) (.bin b)
  | inpl (b : InName) : SlotOwn (.nb (inSlot b)) (.inpl b)
  | un (u : UnName) : u ≠ .complex → u ≠ .index → SlotOwn (.nb (unSlot u)) (.un u)
  | pow : SlotOwn (.nb .power) .pow
  | bool : SlotOwn (.nb .bool) .bool
  | sqLength : SlotOwn (.sq .length) .length
  | igetitem : SlotOwn (.sq .item) .igetitem
  | isetitem : SlotOwn (.sq .assItem) .isetitem
  | contains : SlotOwn (.sq .contains) .contains
  | mpLength : SlotOwn (.mp .length) .length
  | getitem : SlotOwn (.mp .subscript) .getitem
  | setitem : SlotOwn (.mp .assSubscript) .setitem
  | dealloc : SlotOwn (.tp .dealloc) .dealloc
  | repr : SlotOwn (.tp .repr) .repr
  | hash : SlotOwn (.tp .hash) .hash
  | call : SlotOwn (.tp .call) .call
  | str : SlotOwn (.tp .str) .str
  | getattro : SlotOwn (.tp .getattro) .getattro
  | setattro : SlotOwn (.tp .setattro) .setattro
  | traverse : SlotOwn (.tp .traverse) .traverse
  | richcompare : SlotOwn (.tp .richcompare) .richcompare
  | iter : SlotOwn (.tp .iter) .iter
  | iternext : SlotOwn (.tp .iternext) .iternext
  | init : SlotOwn (.tp .init) .init
  | alloc : SlotOwn (.tp .alloc) .genericAlloc
  | new : SlotOwn (.tp .new) .new
  | free : SlotOwn (.tp .free) .gcDel

theorem slotOwn_of {s : TSlot} {f : CFn} (h : proxyOwn s = some f) : SlotOwn s f := by
  cases s with
  | nb m => cases m <;> cases h <;> first
      | exact .bin .add | exact .bin .sub | exact .bin .mul | exact .bin .mod | exact .bin .divmod
      | exact .bin .lshift | exact .bin .rshift | exact .bin .and | exact .bin .xor | exact .bin .or
      | exact .bin .floordiv | exact .bin .truediv | exact .inpl .iadd | exact .inpl .isub
      | exact .inpl .imul | exact .inpl .imod | exact .inpl .ipow | exact .inpl .ilshift
      | exact .inpl .irshift | exact .inpl .iand | exact .inpl .ixor | exact .inpl .ior
      | exact .inpl .ifloordiv | exact .inpl .itruediv | exact .un .neg nofun nofun
      | exact .un .pos nofun nofun | exact .un .abs nofun nofun | exact .un .invert nofun nofun
      | exact .un .int nofun nofun | exact .un .float nofun nofun | exact .pow | exact .bool
  | sq m => cases m <;> cases h <;> constructor
  | mp m => cases m <;> cases h <;> constructor
  | am m => cases h
  | bf m => cases h
  | tp m => cases m <;> cases h <;> constructor

/-- C74: whatever other code does, a function of this package in a slot of proxies carries out nothing
for the user before the right checker has granted the right name; comparison alone needs no permission. -/
theorem C74_mediated_objects (base : TSlot → Option β) {s : TSlot} {f : CFn} {args : Args} {fuel : Nat} {x : C Ptr}
    (hs : ready proxyOwn base s = some (.inl f)) (hx : runObj E fuel f args = some x) :
    (∃ self meth name u l, Demands E s args self meth name u l ∧ Mediated E x self meth name u l) ∨
    (∃ i self name u l, DemandsAt E s args i self name u l ∧ MediatedAt E i x self name u l) ∨
    (∃ u l, DemandsNothing E s args u l ∧ Direct x u l) ∨
    args.NoProxy E ∧ Idle x := by
  have done : ∀ {self meth name u l}, Demands E s args self meth name u l → CheckedObj E x self meth name u l →
      (∃ self meth name u l, Demands E s args self meth name u l ∧ Mediated E x self meth name u l) :=
    fun h1 h2 => ⟨_, _, _, _, _, h1, C64_objects h2⟩
  cases slotOwn_of ((ready_inl _ _ _ _).1 hs) with
  | bin b =>
    cases args <;> cases b <;> cases hx <;> exact (checked2 _).elim .inl fun h => .inr (.inr (.inr h))
  | inpl b =>
    cases args with
    | two x y =>
      cases b <;> cases hx <;> exact .inl (done (.inplace _ nofun) (.inplace _))
    | three x y z =>
      cases b <;> cases hx
      exact .inl (done .ipow .ipow)
    | _ => cases b <;> cases hx
  | un u h1 h2 =>
    cases args with
    | one x =>
      cases u <;> first
        | exact absurd rfl h1
        | exact absurd rfl h2
        | (cases hx; exact .inl (done (.unop _ nofun nofun) (.unary _ (by decide))))
        | (cases hx; exact .inl (done (.unop _ nofun nofun) (.number _ (by decide))))
    | _ => cases u <;> cases hx
  | pow => cases args <;> cases hx; exact checked3.elim .inl fun h => .inr (.inr (.inr h))
  | igetitem => cases args <;> cases hx; exact .inr (.inl ⟨_, _, _, _, _, .get, C64_index .get⟩)
  | getitem => cases args <;> cases hx; exact .inl (done .getitem .getitem)
  | repr => cases args <;> cases hx; exact .inl (done .repr (.text _ (by decide)))
  | str => cases args <;> cases hx; exact .inl (done .str (.text _ (by decide)))
  | call => cases args <;> cases hx; exact .inl (done .call .call)
  | getattro => cases args <;> cases hx; exact .inl (done .getattr .getattr)
  | iter => cases args <;> cases hx; exact .inl (done .iter .iter)
  | iternext => cases args <;> cases hx; exact .inl (done .next .next)
  | richcompare =>
    cases args <;> cases hx
    exact .inr (.inr (.inl ⟨_, _, .compare _, C64_unchecked (.compare _)⟩))
  | _ => cases args <;> cases hx

/-- C74 for the functions that return a number: `hash` and truth need no permission. -/
theorem C74_mediated_ints (base : TSlot → Option β) {s : TSlot} {f : CFn} {args : Args} {x : C Int}
    (hs : ready proxyOwn base s = some (.inl f)) (hx : runInt E f args = some x) :
    (∃ self meth name u l, Demands E s args self meth name u l ∧ Mediated E x self meth name u l) ∨
    (∃ i self name u l, DemandsAt E s args i self name u l ∧ MediatedAt E i x self name u l) ∨
    (∃ u l, DemandsNothing E s args u l ∧ Direct x u l) := by
  have done : ∀ {self meth name u l}, Demands E s args self meth name u l → CheckedInt E x self meth name u l →
      (∃ self meth name u l, Demands E s args self meth name u l ∧ Mediated E x self meth name u l) :=
    fun h1 h2 => ⟨_, _, _, _, _, h1, C64_ints h2⟩
  cases slotOwn_of ((ready_inl _ _ _ _).1 hs) with
  | bool => cases args <;> cases hx; exact .inr (.inr ⟨_, _, .bool, C64_unchecked .bool⟩)
  | hash => cases args <;> cases hx; exact .inr (.inr ⟨_, _, .hash, C64_unchecked .hash⟩)
  | sqLength => cases args <;> cases hx; exact .inl (done (.len _ (.inl rfl)) .len)
  | mpLength => cases args <;> cases hx; exact .inl (done (.len _ (.inr rfl)) .len)
  | contains => cases args <;> cases hx; exact .inl (done .contains .contains)
  | isetitem =>
    cases args <;> cases hx
    next v =>
      cases v with
      | none => exact .inr (.inl ⟨_, _, _, _, _, .del, C64_index .del⟩)
      | some v => exact .inr (.inl ⟨_, _, _, _, _, .set, C64_index .set⟩)
  | setitem =>
    cases args <;> cases hx
    next v =>
      cases v with
      | none => exact .inl (done .delitem .delitem)
      | some v => exact .inl (done .setitem .setitem)
  | setattro =>
    cases args <;> cases hx
    next v =>
      cases v with
      | none => exact .inl (done .delattr .delattr)
      | some v => exact .inl (done .setattr .setattr)
  | _ => cases args <;> cases hx

/-! ### `Checker` -/

/-- C74: the methods of a native checker do what their names say. -/
theorem C74_checker_methods (F : Fits E I) {c o n a g st fuel : Nat} {t : String} (hn : I.val n = .str a t)
    (hc : checkerDicts (I.val c) = some (g, st)) (hf : fuel ≤ I.X.fuel) :
    (∀ k ∈ ["check", "check_getattr"], ∃ f x, checkerMethods.lookup k = some f ∧
      runObj E fuel f (.three c o (some n)) = some x ∧
      Refines E I (FieldsOf E I c) x (plainCheck I.X (hasattrX I.X) g (I.val o) t) (NoneResult E I)) ∧
    (∃ f x, checkerMethods.lookup "check_setattr" = some f ∧ runObj E fuel f (.three c o (some n)) = some x ∧
      Refines E I (FieldsOf E I c) x (plainSetattr I.X st (I.val o) t) (NoneResult E I)) ∧
    (∃ f x, checkerMethods.lookup "permission_id" = some f ∧ runObj E fuel f (.two c n) = some x ∧
      Refines E I (FieldsOf E I c) x (fun s => (.ok ((ZS.permissionId s (I.val c) t).getD .none), s))
        (ObjResult E I)) ∧
    (∃ f x, checkerMethods.lookup "setattr_permission_id" = some f ∧ runObj E fuel f (.two c n) = some x ∧
      Refines E I (FieldsOf E I c) x (fun s => (.ok ((ZS.setattrPermissionId s (I.val c) t).getD .none), s))
        (ObjResult E I)) ∧
    ∃ f x, checkerMethods.lookup "proxy" = some f ∧ runObj E fuel f (.two c o) = some x ∧
      Refines E I (fun _ _ => True) x (chkProxy I.X (I.val c) (I.val o)) (ObjResult E I) := by
  have hname : I.name n = t := by simp [Interp.name, hn]
  have hchk : (I.val c).isChecker = true := by
    cases hv : I.val c <;> rw [hv] at hc <;> first | rfl | cases hc
  refine ⟨fun k hk => ?_, ⟨_, _, rfl, rfl, C63_check_setattr F hn hc⟩,
    ⟨_, _, rfl, rfl, hname ▸ C63_permission_id F hc⟩, ⟨_, _, rfl, rfl, hname ▸ C63_setattr_permission_id F hc⟩,
    ⟨_, _, rfl, rfl, C63_proxy F hchk hf⟩⟩
  simp only [List.mem_cons, List.not_mem_nil, or_false] at hk
  rcases hk with rfl | rfl <;> exact ⟨_, _, rfl, rfl, C63_check F hn hc⟩

/-- C74: the slots that proxies use instead of the methods do the same: `checker[object] = name` checks,
`checker[object]` wraps. -/
theorem C74_checker_slots (F : Fits E I) (base : TSlot → Option β) {c o n a g st fuel : Nat} {t : String}
    (hn : I.val n = .str a t) (hc : checkerDicts (I.val c) = some (g, st)) (hf : fuel ≤ I.X.fuel) :
    (∃ f x, ready checkerOwn base (.mp .assSubscript) = some (.inl f) ∧ runInt E f (.three c o (some n)) = some x ∧
      Refines E I (FieldsOf E I c) x (plainCheck I.X (hasattrX I.X) g (I.val o) t) (CheckResult E I)) ∧
    ∃ f x, ready checkerOwn base (.mp .subscript) = some (.inl f) ∧ runObj E fuel f (.two c o) = some x ∧
      Refines E I (fun _ _ => True) x (chkProxy I.X (I.val c) (I.val o)) (ObjResult E I) := by
  have hchk : (I.val c).isChecker = true := by
    cases hv : I.val c <;> rw [hv] at hc <;> first | rfl | cases hc
  exact ⟨⟨_, _, rfl, rfl, C63_check_int F hn hc⟩, _, _, rfl, rfl, C63_proxy F hchk hf⟩

/-- C74: the attributes `get_permissions` and `set_permissions` are the checker's dictionaries. -/
theorem C74_checker_attributes {c fuel : Nat} :
    (∃ f x, checkerGetset.lookup "get_permissions" = some f ∧ runObj E fuel f (.one c) = some x ∧
      ∀ m p m', x m = .ok p m' → (∀ d, m.getperms c = some d → p = some d) ∧ (p = none ∨ m'.getperms c = p)) ∧
    ∃ f x, checkerGetset.lookup "set_permissions" = some f ∧ runObj E fuel f (.one c) = some x ∧
      ∀ m p m', x m = .ok p m' → (∀ d, m.setperms c = some d → p = some d) ∧ (p = none ∨ m'.setperms c = p) := by
  refine ⟨⟨_, _, rfl, rfl, fun m p m' h => ?_⟩, _, _, rfl, rfl, fun m p m' h => ?_⟩
  · cases hg : m.getperms c with
    | some d =>
      simp [getGetPermissions, loadGetperms, CM.returnField, CM.deref, CM.incref, CM.use, alive, Bind.bind, Pure.pure, hg] at h
      obtain ⟨rfl, rfl⟩ := h
      exact ⟨fun _ h => h, .inr hg⟩
    | none =>
      by_cases hr : (E.reply m.log.length).null = true
      · simp [getGetPermissions, loadGetperms, CM.callObj, CM.useAll, CM.consult, CM.setErr, Bind.bind, Pure.pure, hg, hr] at h
        obtain ⟨rfl, rfl⟩ := h
        exact ⟨nofun, .inl rfl⟩
      · simp [getGetPermissions, loadGetperms, CM.callObj, CM.useAll, CM.consult, CM.gain, Bind.bind, Pure.pure, hr, storeGetperms, givePtr,
          CM.give, CM.returnField, CM.deref, CM.incref, CM.use, alive, hg] at h
        obtain ⟨rfl, rfl⟩ := h
        exact ⟨nofun, .inr (if_pos rfl)⟩
  · cases hg : m.setperms c with
    | some d =>
      simp [getSetPermissions, loadSetperms, CM.returnField, CM.deref, CM.incref, CM.use, alive, Bind.bind, Pure.pure, hg] at h
      obtain ⟨rfl, rfl⟩ := h
      exact ⟨fun _ h => h, .inr hg⟩
    | none =>
      by_cases hr : (E.reply m.log.length).null = true
      · simp [getSetPermissions, loadSetperms, CM.callObj, CM.useAll, CM.consult, CM.setErr, Bind.bind, Pure.pure, hg, hr] at h
        obtain ⟨rfl, rfl⟩ := h
        exact ⟨nofun, .inl rfl⟩
      · simp [getSetPermissions, loadSetperms, CM.callObj, CM.useAll, CM.consult, CM.gain, Bind.bind, Pure.pure, hr, storeSetperms, givePtr,
          CM.give, CM.returnField, CM.deref, CM.incref, CM.use, alive, hg] at h
        obtain ⟨rfl, rfl⟩ := h
        exact ⟨nofun, .inr (if_pos rfl)⟩

/-- C74: everything else checkers take from their base type, except that they have no `tp_traverse`, `tp_clear`
of its. -/
theorem C74_checker_left (base : TSlot → Option β) (s : TSlot) (b : β) (_ : ∀ m ∈ noFunction, s ≠ .tp m)
    (h1 : s ≠ .nb .reserved) (h2 : s ≠ .sq .wasSlice) (h3 : s ≠ .sq .wasAssSlice) :
    ready checkerOwn base s = some (.inr b) ↔ s ∉ checkerSlots ∧ base s = some b := by
  have key : ∀ (l : Prop) (o : Option β), l → (o.map Sum.inr = some (.inr b : CFn ⊕ β) ↔ l ∧ o = some b) := by
    intro l o hl; cases o <;> simp [hl]
  cases s with
  | nb m => cases m <;> first
      | exact key _ _ (by decide)
      | exact absurd rfl h1
  | sq m => cases m <;> first
      | exact key _ _ (by decide)
      | exact absurd rfl h2
      | exact absurd rfl h3
  | mp m => cases m <;> first
      | exact key _ _ (by decide)
      | exact ⟨(fun h => by cases h), fun h => absurd h.1 (by decide)⟩
  | am m => cases m <;> exact key _ _ (by decide)
  | bf m => cases m <;> exact key _ _ (by decide)
  | tp m => cases m <;> first
      | exact key _ _ (by decide)
      | exact ⟨(fun h => by cases h), fun h => absurd h.1 (by decide)⟩

/-! ### `ProxyPy` -/

theorem wrapAll_eq {base : Name → Option Name} {f : Name → PyAttr} :
    ∀ {l : List Name} {d d' : Dict}, wrapAll base f l d = some d' →
      ∀ n, d' n = if n ∈ l then (base n).map f else d n
  | [], d, d', h, n => by cases h; simp
  | k :: l, d, d', h, n => by
    unfold wrapAll at h
    split at h
    · next m hk =>
      rw [wrapAll_eq h n]
      by_cases h1 : n ∈ l
      · simp [h1]
      · by_cases h2 : n = k
        · subst h2; simp [h1, Dict.set, hk]
        · simp [h1, h2, Dict.set]
    · cases h

theorem wrapAll_base {base : Name → Option Name} {f : Name → PyAttr} :
    ∀ {l : List Name} {d d' : Dict}, wrapAll base f l d = some d' → ∀ n ∈ l, base n ≠ none
  | k :: l, d, d', h, n, hn => by
    unfold wrapAll at h
    split at h
    · next m hk =>
      rcases List.mem_cons.1 hn with rfl | hn
      · rw [hk]; exact nofun
      · exact wrapAll_base h n hn
    · cases h

/-- C74: if the methods of the base class bear their own names and the module can be imported, the class
`ProxyPy` checks each of these special methods under the method's own name, wrapping the result except that of
`len`; and it takes from the base class nothing but what is not listed. -/
theorem C74_python {base : Name → Option Name} (hb : ∀ n m, base n = some m → m = n) {d : Dict}
    (h : proxyClass base = some d) :
    (∀ n ∈ pyChecked, d n = some (.checked n (n ≠ "__len__"))) ∧
    (∀ n ∈ pyInplace, d n = some (.inplace n)) ∧
    (∀ n ∈ pyOwn, d n = some (.own n)) ∧
    ∀ n m, classAttr d base n = some (.inr m) ↔ n ∉ pyChecked ++ pyInplace ++ pyOwn ∧ base n = some m := by
  unfold proxyClass at h
  split at h
  · next d1 h1 =>
    split at h
    · next d2 h2 =>
      have e1 := wrapAll_eq h1
      have e2 := wrapAll_eq h2
      have e3 := wrapAll_eq h
      have b1 := wrapAll_base h1
      have b2 := wrapAll_base h2
      have b3 := wrapAll_base h
      have hn : ∀ {n}, base n ≠ none → base n = some n := fun {n} h => by
        cases hm : base n with
        | none => exact absurd hm h
        | some m => rw [hb n m hm]
      have k1 : ∀ n ∈ pyChecked, n ∉ proxyPyInplace ∧
          (n ∈ proxyPyPlain ∧ n = "__len__" ∨ n ∉ proxyPyPlain ∧ n ∈ proxyPyChecked ∧ n ≠ "__len__") := by
        decide +kernel
      have k2 : ∀ n ∈ pyInplace, n ∈ proxyPyInplace := by decide +kernel
      have k3 : ∀ n ∈ pyOwn, n ∉ proxyPyInplace ∧ n ∉ proxyPyPlain ∧ n ∉ proxyPyChecked ∧ n ∈ proxyPyOwn := by
        decide +kernel
      have k4 : ∀ n ∈ proxyPyInplace ++ proxyPyPlain ++ proxyPyChecked ++ proxyPyOwn,
          n ∈ pyChecked ++ pyInplace ++ pyOwn := by decide +kernel
      have c1 : ∀ n ∈ pyChecked, d n = some (.checked n (n ≠ "__len__")) := by
        intro n h0
        obtain ⟨h3, ⟨h4, h5⟩ | ⟨h4, h5, h6⟩⟩ := k1 n h0
        · rw [e3, if_neg h3, e2, if_pos h4, hn (b2 n h4)]; simp [h5]
        · rw [e3, if_neg h3, e2, if_neg h4, e1, if_pos h5, hn (b1 n h5)]; simp [h6]
      have c2 : ∀ n ∈ pyInplace, d n = some (.inplace n) := by
        intro n h0
        rw [e3, if_pos (k2 n h0), hn (b3 n (k2 n h0))]; rfl
      have c3 : ∀ n ∈ pyOwn, d n = some (.own n) := by
        intro n h0
        obtain ⟨h3, h4, h5, h6⟩ := k3 n h0
        rw [e3, if_neg h3, e2, if_neg h4, e1, if_neg h5, if_pos h6]
      refine ⟨c1, c2, c3, fun n m => ?_⟩
      by_cases h0 : n ∈ pyChecked ++ pyInplace ++ pyOwn
      · refine ⟨fun h9 => ?_, fun h9 => absurd h0 h9.1⟩
        have : ∃ a, d n = some a := by
          simp only [List.mem_append] at h0
          rcases h0 with (h0 | h0) | h0
          exacts [⟨_, c1 n h0⟩, ⟨_, c2 n h0⟩, ⟨_, c3 n h0⟩]
        obtain ⟨a, ha⟩ := this
        simp [classAttr, ha] at h9
      · have hd : d n = none := by
          have h9 : ∀ l : List Name, (∀ n ∈ l, n ∈ proxyPyInplace ++ proxyPyPlain ++ proxyPyChecked ++ proxyPyOwn) → n ∉ l :=
            fun l hl hm => h0 (k4 n (hl n hm))
          rw [e3, if_neg (h9 _ (by simp +contextual)), e2, if_neg (h9 _ (by simp +contextual)), e1,
            if_neg (h9 _ (by simp +contextual)), if_neg (h9 _ (by simp +contextual))]
        simp only [classAttr, hd]
        cases hm : base n with
        | none => exact ⟨(fun h => by cases h), fun h => by cases h.2⟩
        | some k => exact ⟨(fun h => by cases h; exact ⟨h0, rfl⟩), fun h => by cases h.2; rfl⟩
    · cases h
  · cases h

/-- C74: the class can be built just when the base class has all the methods. -/
theorem C74_python_built (base : Name → Option Name) :
    (∃ d, proxyClass base = some d) ↔ ∀ n ∈ pyChecked ++ pyInplace, base n ≠ none := by
  have hw : ∀ (f : Name → PyAttr) (l : List Name) (d : Dict), (∀ n ∈ l, base n ≠ none) →
      ∃ d', wrapAll base f l d = some d' := by
    intro f l
    induction l with
    | nil => exact fun d _ => ⟨d, rfl⟩
    | cons k l ih =>
      intro d h
      cases hk : base k with
      | none => exact absurd hk (h k (.head _))
      | some m =>
        obtain ⟨d', h'⟩ := ih (d.set k (f m)) fun n hn => h n (.tail _ hn)
        exact ⟨d', by rw [wrapAll, hk]; exact h'⟩
  have k1 : ∀ n ∈ pyChecked ++ pyInplace, n ∈ proxyPyChecked ++ proxyPyPlain ++ proxyPyInplace := by decide +kernel
  have k2 : ∀ n ∈ proxyPyChecked ++ proxyPyPlain ++ proxyPyInplace, n ∈ pyChecked ++ pyInplace := by decide +kernel
  constructor
  · rintro ⟨d, h⟩ n hn
    unfold proxyClass at h
    split at h
    · next h1 =>
      split at h
      · next h2 =>
        have h9 := k1 n hn
        simp only [List.mem_append] at h9
        rcases h9 with (h9 | h9) | h9
        exacts [wrapAll_base h1 n h9, wrapAll_base h2 n h9, wrapAll_base h n h9]
      · cases h
    · cases h
  · intro h
    have h' := fun n hn => h n (k2 n hn)
    simp only [List.mem_append] at h'
    obtain ⟨d1, h1⟩ := hw (.checked · true) proxyPyChecked (fun n => if n ∈ proxyPyOwn then some (.own n) else none)
      fun n hn => h' n (.inl (.inl hn))
    obtain ⟨d2, h2⟩ := hw (.checked · false) proxyPyPlain d1 fun n hn => h' n (.inl (.inr hn))
    obtain ⟨d3, h3⟩ := hw .inplace proxyPyInplace d2 fun n hn => h' n (.inr hn)
    exact ⟨d3, by unfold proxyClass; rw [h1]; simp only; rw [h2]; exact h3⟩

/-- C74: of the special methods that `ProxyPy` checks or defines, those that have slots are in the C type's
own slots, whatever its base; except `__index__`, which proxies take from the base without a check. -/
theorem C74_index (base : TSlot → Option β) (n : Name) (hn : n ∈ pyChecked ++ pyInplace ++ pyOwn) (s : TSlot)
    (hs : s ∈ slotsFor n) (b : β) (hb : base s = some b) :
    ready proxyOwn base s = some (.inr b) ↔ n = "__index__" := by
  have k1 : ∀ n ∈ pyChecked ++ pyInplace ++ pyOwn, ∀ s ∈ slotsFor n,
      (∀ m ∈ noFunction, s ≠ .tp m) ∧ (s ∈ leftToBase ↔ n = "__index__") := by decide +kernel
  obtain ⟨h1, h2⟩ := k1 n hn s hs
  rw [C74_left base s b h1, h2]
  exact ⟨fun h => h.1, fun h => ⟨h, hb⟩⟩


/-! ### Memory and exceptions -/

/-- C74: any function in the tables, those of the methods included, that returns an object can be called
with any arguments of the right kind: it handles references and exceptions as C57-C59 say. -/
theorem C74_safe_objects (hK : Kept E) {f : CFn} {args : Args} {fuel : Nat} {x : C Ptr}
    (hx : runObj E fuel f args = some x) (hh : args.Held E) :
    Balanced E x id ∧ MemorySafe x ∧ Truthful x Option.isNone := by
  suffices h : ObjEntry E x from ⟨C57_objects hK h, C58_objects hK h, C59_objects hK h⟩
  cases f with
  | bin b => cases args <;> cases b <;> cases hx <;> exact .binary _ _ hh.1 hh.2
  | inpl b =>
    cases args <;> cases b <;> cases hx <;> first
      | exact .inplace _ hh.1 hh.2
      | exact .ipow hh.1 hh.2.1
  | un u =>
    cases args <;> cases u <;> cases hx <;> first
      | exact .unary _ hh
      | exact .number _ hh
  | pow => cases args <;> cases hx; exact .pow hh.1 hh.2.1 hh.2.2
  | igetitem => cases args <;> cases hx; exact .igetitem hh
  | getitem => cases args <;> cases hx; exact .getitem hh.1 hh.2
  | repr => cases args <;> cases hx; exact .repr hh
  | str => cases args <;> cases hx; exact .str hh
  | call => cases args <;> cases hx; exact .call hh.1 hh.2.1 hh.2.2
  | getattro => cases args <;> cases hx; exact .getattro hh.1 hh.2
  | iter => cases args <;> cases hx; exact .iter hh
  | iternext => cases args <;> cases hx; exact .iternext hh
  | richcompare => cases args <;> cases hx; exact .richcompare _ hh.1 hh.2
  | lengthHint => cases args <;> cases hx; exact .lengthHint hh
  | checkerProxy => cases args <;> cases hx; exact .proxy hh.2
  | permissionId => cases args <;> cases hx; exact .permissionId hh.1 hh.2
  | setattrPermissionId => cases args <;> cases hx; exact .setattrPermissionId hh.1 hh.2
  | checkerCheck =>
    cases args with
    | three c o n => cases n <;> cases hx; exact .check hh.1 hh.2.1 (hh.2.2 _ rfl)
    | _ => cases hx
  | checkerCheckSetattr =>
    cases args with
    | three c o n => cases n <;> cases hx; exact .checkSetattr hh.1 hh.2.1 (hh.2.2 _ rfl)
    | _ => cases hx
  | getGetPermissions => cases args <;> cases hx; exact .getGetPermissions hh
  | getSetPermissions => cases args <;> cases hx; exact .getSetPermissions hh
  | _ => cases args <;> cases hx

/-- C74 for functions that return a number.  `proxy_hash` fails with -1 only; `checker_check_int` must not be
called to delete (C58_delitem). -/
theorem C74_safe_ints (hK : Kept E) {f : CFn} {args : Args} {x : C Int}
    (hx : runInt E f args = some x) (hh : args.Held E) (hd : ∀ c o, f = .checkerCheckInt → args ≠ .three c o .none) :
    Balanced E x (fun _ => none) ∧ MemorySafe x ∧
      Truthful x (if f = .hash then fun i => decide (i = -1) else negative) := by
  by_cases hf : f = .hash
  · subst hf
    cases args <;> cases hx
    obtain ⟨h1, h2, h3, -⟩ := C59_hash hK hh
    exact ⟨h1, h2, h3⟩
  rw [if_neg hf]
  suffices h : IntEntry E x from ⟨C57_ints hK h, C58_ints hK h, C59_ints hK h⟩
  cases f with
  | hash => exact absurd rfl hf
  | bool => cases args <;> cases hx; exact .bool hh
  | length => cases args <;> cases hx; exact .length hh
  | isetitem => cases args <;> cases hx; exact .isetitem hh.1 hh.2
  | contains => cases args <;> cases hx; exact .contains hh.1 hh.2
  | setitem => cases args <;> cases hx; exact .setitem hh.1 hh.2.1 hh.2.2
  | setattro => cases args <;> cases hx; exact .setattro hh.1 hh.2.1 hh.2.2
  | checkerCheckInt =>
    cases args with
    | three c o n =>
      cases n with
      | none => exact absurd rfl (hd c o rfl)
      | some n => cases hx; exact .checkInt hh.1 hh.2.1 (hh.2.2 _ rfl)
    | _ => cases hx
  | checkerClear => cases args <;> cases hx; exact .clear hh
  | checkerInit => cases args <;> cases hx; exact .init hh.1 hh.2.1 hh.2.2
  | _ => cases args <;> cases hx

/-! ### Cases -/

/-- A base type that has a function for everything. -/
def fullBase (_ : TSlot) : Option Unit := some ()

/-- `x + proxy`: the slot `nb_add` of the finished type is `proxy_add`, in spite of the base. -/
example : ready proxyOwn fullBase (.nb .add) = some (.inl (.bin .add)) := by decide

/-- `x @ proxy` and `operator.index(proxy)` are the base's. -/
example : ready proxyOwn fullBase (.nb .matrixMultiply) = some (.inr ()) ∧
    ready proxyOwn fullBase (.nb .index) = some (.inr ()) :=
  ⟨(C74_left fullBase _ () (by decide)).2 ⟨by decide, rfl⟩,
   (C74_index fullBase "__index__" (by decide) _ (by decide) () rfl).2 rfl⟩

/-- A base without buffers: proxies have none either. -/
example : ready (β := Unit) proxyOwn (fun _ => none) (.bf .get) = none := by decide

/-- The environment of the run of C63. -/
noncomputable abbrev runEnv : Env := Sample.env (Ex.X .c) (Sample.answers Sample.replies)
noncomputable abbrev runInterp : Interp Unit := Sample.interp (Ex.X .c)

/-- `proxy.a`. -/
example : ∃ f x, ready proxyOwn fullBase (.tp .getattro) = some (.inl f) ∧
    runObj runEnv 5 f (.two Sample.p (Sample.num (.str 0 "a"))) = some x ∧
    Refines runEnv runInterp (Fields runEnv runInterp) x
      (pop (Ex.X .c) (runInterp.val Sample.p) (.getattr "a" false)) (ObjResult runEnv runInterp) :=
  C74_objects (Sample.fits (Ex.X .c) rfl (Sample.answers Sample.replies)) (Sample.val_num (.proxy 70 (.obj 1) Ex.c1)) fullBase
    (.getattr (a := 0) false (Sample.val_num _)) 5 (Nat.le_refl 5)

/-- `len(proxy)` by either slot. -/
example : ∃ f x, ready proxyOwn fullBase (.mp .length) = some (.inl f) ∧
    runInt runEnv f (.one Sample.p) = some x ∧
    Refines runEnv runInterp (Fields runEnv runInterp) x
      (pop (Ex.X .c) (runInterp.val Sample.p) .len) (IntResult runEnv runInterp) :=
  C74_ints (Sample.fits (Ex.X .c) rfl (Sample.answers Sample.replies)) (Sample.val_num (.proxy 70 (.obj 1) Ex.c1)) fullBase
    (.len _ (.inr rfl))

/-- In the environment of C57-C65, where 4 is a proxy and 12 is not: `12 + proxy` demands `__radd__`. -/
example : Demands (CSample.sampleEnv (CSample.answers [])) (.nb .add) (.two 12 4) 4 "check" 20 (.binary "__add__") [12, 12] :=
  .binR .add rfl rfl

/-- `Checker_methods`: `check` and `check_getattr` are one function. -/
example : checkerMethods.lookup "check" = some .checkerCheck ∧ checkerMethods.lookup "check_getattr" = some .checkerCheck := by
  decide

/-- Checkers take `repr` from `object`. -/
example : ready checkerOwn fullBase (.tp .repr) = some (.inr ()) :=
  (C74_checker_left fullBase (.tp .repr) () (by decide) nofun nofun nofun).2 ⟨by decide, rfl⟩

/-- A base class that has all methods: the class can be built, and `@` is the base's. -/
example : ∃ d, proxyClass some = some d ∧ d "__index__" = some (.checked "__index__" true) ∧
    d "__iadd__" = some (.inplace "__iadd__") ∧ d "__hash__" = some (.own "__hash__") ∧
    classAttr d some "__matmul__" = some (.inr "__matmul__") := by
  obtain ⟨d, h⟩ := (C74_python_built some).2 fun _ _ => nofun
  obtain ⟨h1, h2, h3, h4⟩ := C74_python (fun _ _ h => by cases h; rfl) h
  exact ⟨d, h, h1 _ (by decide), h2 _ (by decide), h3 _ (by decide), (h4 _ _).2 ⟨by decide, rfl⟩⟩

/-- Without `__index__` in the base class the module cannot be imported. -/
example : proxyClass (fun n => if n = "__index__" then none else some n) = none := by
  cases h : proxyClass (fun n => if n = "__index__" then none else some n) with
  | none => rfl
  | some d => exact absurd rfl ((C74_python_built _).1 ⟨d, h⟩ "__index__" (by decide))

end ZS.Props
