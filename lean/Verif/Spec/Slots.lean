import Verif.Model.Slots
import Verif.Spec.CRefine
import Verif.Spec.CSlots
import Verif.Spec.CMediation
import Verif.Spec.CEntries

/-!
Vocabulary for C74: which slot of the type the interpreter uses for an operation, and the lists of slots
and special methods that the package leaves to the base type.
-/

namespace ZS.CM
variable {A : Type}

/-- The slot of a binary operator (CPython: `Objects/abstract.c`). -/
def binSlot : BinName → Nb
  | .add => .add | .sub => .subtract | .mul => .multiply | .mod => .remainder | .divmod => .divmod
  | .lshift => .lshift | .rshift => .rshift | .and => .and | .xor => .xor | .or => .or
  | .floordiv => .floorDivide | .truediv => .trueDivide

/-- The slot of an in-place operator other than `**=`. -/
def inSlot : InName → Nb
  | .iadd => .inplaceAdd | .isub => .inplaceSubtract | .imul => .inplaceMultiply
  | .imod => .inplaceRemainder | .ipow => .inplacePower | .ilshift => .inplaceLshift
  | .irshift => .inplaceRshift | .iand => .inplaceAnd | .ixor => .inplaceXor | .ior => .inplaceOr
  | .ifloordiv => .inplaceFloorDivide | .itruediv => .inplaceTrueDivide

/-- The slot of a unary operator; `complex(x)` calls `nb_float` if there is no method `__complex__`. -/
def unSlot : UnName → Nb
  | .neg => .negative | .pos => .positive | .abs => .absolute | .invert => .invert | .int => .int
  | .float => .float | .complex => .float | .index => .index

/-- The interpreter performs the operation on the proxy `p` by calling the function in the slot with
these arguments; the function returns an object.  `a[i]` by the C API (`PySequence_GetItem`) uses `sq_item`. -/
inductive Asks (E : Env) (I : Interp A) (p : Nat) : POp → TSlot → Args → Prop
  | getattr {n a : Nat} {t : String} (inside : Bool) : I.val n = .str a t →
      Asks E I p (.getattr t inside) (.tp .getattro) (.two p n)
  | unop (u : UnName) : u ∈ [.neg, .pos, .abs, .invert] → Asks E I p (.unop u) (.nb (unSlot u)) (.one p)
  | number (u : UnName) : u ∈ [.int, .float] → E.hasNumber (E.wrapped p) = true →
      Asks E I p (.unop u) (.nb (unSlot u)) (.one p)
  | call {args : Nat} : Asks E I p (.call ((I.tuple args).map I.val)) (.tp .call) (.three p args .none)
  | getitem {k : Nat} : Asks E I p (.getitem (I.val k)) (.mp .subscript) (.two p k)
  | igetitem {i : Int} : Asks E I p (.getitem (.int i)) (.sq .item) (.item p i)
  | iter : Asks E I p .iter (.tp .iter) (.one p)
  | next : Asks E I p .next (.tp .iternext) (.one p)
  | binL {o : Nat} (b : BinName) : Asks E I p (.binL b (I.val o)) (.nb (binSlot b)) (.two p o)
  | binR {o : Nat} (b : BinName) : Asks E I p (.binR b (I.val o)) (.nb (binSlot b)) (.two o p)
  | pow {y : Nat} {md : Ptr} : Asks E I p (.pow (I.val y) (powArg I md)) (.nb .power) (.three p y md)
  | rpow {x : Nat} {md : Ptr} : Asks E I p (.rpow (I.val x) (powArg I md)) (.nb .power) (.three x p md)
  | pow3 {x y : Nat} : Asks E I p (.pow3 (I.val x) (I.val y)) (.nb .power) (.three x y (some p))
  | inplace {o : Nat} (b : InName) : b ≠ .ipow →
      Asks E I p (.inplace b (I.val o)) (.nb (inSlot b)) (.two p o)
  | ipow {o : Nat} {z : Ptr} : Asks E I p (.inplace .ipow (I.val o)) (.nb .inplacePower) (.three p o z)
  | compare {o : Nat} (b : CmpName) : Asks E I p (.compare b (I.val o)) (.tp .richcompare) (.cmp p o b.op)
  | str : Asks E I p .str (.tp .str) (.one p)
  | repr : Asks E I p .repr (.tp .repr) (.one p)

/-- The same for functions that return a number; assigning and deleting use the same slot. -/
inductive AsksInt (I : Interp A) (p : Nat) : POp → TSlot → Args → Prop
  | setattr {n a v : Nat} {t : String} : I.val n = .str a t →
      AsksInt I p (.setattr t (I.val v)) (.tp .setattro) (.three p n (some v))
  | delattr {n a : Nat} {t : String} : I.val n = .str a t →
      AsksInt I p (.delattr t) (.tp .setattro) (.three p n .none)
  | setitem {k v : Nat} : AsksInt I p (.setitem (I.val k) (I.val v)) (.mp .assSubscript) (.three p k (some v))
  | delitem {k : Nat} : AsksInt I p (.delitem (I.val k)) (.mp .assSubscript) (.three p k .none)
  | isetitem {i : Int} {v : Nat} : AsksInt I p (.setitem (.int i) (I.val v)) (.sq .assItem) (.assItem p i (some v))
  | idelitem {i : Int} : AsksInt I p (.delitem (.int i)) (.sq .assItem) (.assItem p i .none)
  | contains {v : Nat} : AsksInt I p (.contains (I.val v)) (.sq .contains) (.two p v)
  /-- `len()` looks at `sq_length` first, then at `mp_length` -/
  | len (s : TSlot) : s = .sq .length ∨ s = .mp .length → AsksInt I p .len s (.one p)
  | hash : AsksInt I p .hash (.tp .hash) (.one p)
  | bool : AsksInt I p .bool (.nb .bool) (.one p)

/-- Slots for which `_proxy.c` has no function and which are therefore the base's: `operator.index`, `@`,
`@=`, `await` and asynchronous iteration, the buffer protocol, `PySequence_Concat` and its kin, descriptors, finalisation. -/
def leftToBase : List TSlot :=
  [.nb .index, .nb .matrixMultiply, .nb .inplaceMatrixMultiply, .sq .concat, .sq .repeat,
   .sq .inplaceConcat, .sq .inplaceRepeat, .am .await, .am .aiter, .am .anext, .am .send,
   .bf .get, .bf .release, .tp .descrGet, .tp .descrSet, .tp .isGc, .tp .finalize]

/-- Members of the structure that hold no function. -/
def noFunction : List Tp :=
  [.name, .basicsize, .itemsize, .asAsync, .asNumber, .asSequence, .asMapping, .asBuffer, .flags, .doc,
   .weaklistoffset, .methods, .members, .getset, .base, .dict, .dictoffset]

/-- Calling the slot with these arguments demands that the checker of the proxy `self` grants the name to the
method; what is carried out then, and on what. -/
inductive Demands (E : Env) : TSlot → Args → (self : Nat) → (meth : String) → (name : Nat) → UserFn → List Nat → Prop
  | getattr {p n : Nat} : Demands E (.tp .getattro) (.two p n) p "check_getattr" n .getAttr [E.wrapped p, n]
  | setattr {p n v : Nat} :
      Demands E (.tp .setattro) (.three p n (some v)) p "check_setattr" n .setAttr [E.wrapped p, n, v]
  | delattr {p n : Nat} : Demands E (.tp .setattro) (.three p n .none) p "check_setattr" n .delAttr [E.wrapped p, n]
  | unop {p : Nat} (u : UnName) : u ≠ .complex → u ≠ .index →
      Demands E (.nb (unSlot u)) (.one p) p "check" (E.const u.op) (.special u.op) [E.wrapped p]
  | call {p a : Nat} {k : Ptr} :
      Demands E (.tp .call) (.three p a k) p "check" (E.const "__call__") (.special "__call__")
        ([E.wrapped p, a] ++ k.toList)
  | getitem {p k : Nat} :
      Demands E (.mp .subscript) (.two p k) p "check" (E.const "__getitem__") (.special "__getitem__") [E.wrapped p, k]
  | setitem {p k v : Nat} :
      Demands E (.mp .assSubscript) (.three p k (some v)) p "check" (E.const "__setitem__") (.special "__setitem__")
        [E.wrapped p, k, v]
  | delitem {p k : Nat} :
      Demands E (.mp .assSubscript) (.three p k .none) p "check" (E.const "__delitem__") (.special "__delitem__")
        [E.wrapped p, k]
  | contains {p v : Nat} :
      Demands E (.sq .contains) (.two p v) p "check" (E.const "__contains__") (.special "__contains__") [E.wrapped p, v]
  | len {p : Nat} (s : TSlot) : s = .sq .length ∨ s = .mp .length →
      Demands E s (.one p) p "check" (E.const "__len__") (.special "__len__") [E.wrapped p]
  | iter {p : Nat} : Demands E (.tp .iter) (.one p) p "check" (E.const "__iter__") (.special "__iter__") [E.wrapped p]
  | next {p : Nat} :
      Demands E (.tp .iternext) (.one p) p "check_getattr" (E.const "__next__") (.special "__next__") [E.wrapped p]
  | str {p : Nat} : Demands E (.tp .str) (.one p) p "check" (E.const "__str__") (.special "__str__") [E.wrapped p]
  | repr {p : Nat} : Demands E (.tp .repr) (.one p) p "check" (E.const "__repr__") (.special "__repr__") [E.wrapped p]
  | binL {p o : Nat} (b : BinName) : E.isProxy p = true →
      Demands E (.nb (binSlot b)) (.two p o) p "check" (E.const b.op) (.binary b.op) [E.wrapped p, o]
  | binR {p o : Nat} (b : BinName) : E.isProxy o = false → E.isProxy p = true →
      Demands E (.nb (binSlot b)) (.two o p) p "check" (E.const b.rop) (.binary b.op) [o, E.wrapped p]
  | inplace {p o : Nat} (b : InName) : b ≠ .ipow →
      Demands E (.nb (inSlot b)) (.two p o) p "check" (E.const b.op) (.inplace b.op) [E.wrapped p, o]
  | ipow {p o : Nat} {z : Ptr} :
      Demands E (.nb .inplacePower) (.three p o z) p "check" (E.const "__ipow__") (.inplace "__ipow__")
        [E.wrapped p, o, E.none]
  | pow {p y : Nat} {md : Ptr} : E.isProxy p = true →
      Demands E (.nb .power) (.three p y md) p "check" (E.const "__pow__") .power ([E.wrapped p, y] ++ md.toList)
  | rpow {p x : Nat} {md : Ptr} : E.isProxy x = false → E.isProxy p = true →
      Demands E (.nb .power) (.three x p md) p "check" (E.const "__rpow__") .power ([x, E.wrapped p] ++ md.toList)
  | pow3 {p x y : Nat} : E.isProxy x = false → E.isProxy y = false → E.isProxy p = true →
      Demands E (.nb .power) (.three x y (some p)) p "check" (E.const "__3pow__") .power [x, y, E.wrapped p]

/-- The same for access by index: what is carried out, given the Python int. -/
inductive DemandsAt (E : Env) : TSlot → Args → (i : Int) → (self name : Nat) → UserFn → (Nat → List Nat) → Prop
  | get {p : Nat} {i : Int} :
      DemandsAt E (.sq .item) (.item p i) i p (E.const "__getitem__") (.special "__getitem__") fun k => [E.wrapped p, k]
  | set {p v : Nat} {i : Int} :
      DemandsAt E (.sq .assItem) (.assItem p i (some v)) i p (E.const "__setitem__") (.special "__setitem__")
        fun k => [E.wrapped p, k, v]
  | del {p : Nat} {i : Int} :
      DemandsAt E (.sq .assItem) (.assItem p i .none) i p (E.const "__delitem__") (.special "__delitem__")
        fun k => [E.wrapped p, k]

/-- Comparison, `hash` and truth demand nothing. -/
inductive DemandsNothing (E : Env) : TSlot → Args → UserFn → List Nat → Prop
  | compare {p o : Nat} (op : String) :
      DemandsNothing E (.tp .richcompare) (.cmp p o op) (.compare op) [E.wrapped p, o]
  | hash {p : Nat} : DemandsNothing E (.tp .hash) (.one p) (.special "__hash__") [E.wrapped p]
  | bool {p : Nat} : DemandsNothing E (.nb .bool) (.one p) (.special "__bool__") [E.wrapped p]

/-- Operators none of whose operands is a proxy. -/
def Args.NoProxy (E : Env) : Args → Prop
  | .two a b => E.isProxy a = false ∧ E.isProxy b = false
  | .three a b c => E.isProxy a = false ∧ E.isProxy b = false ∧ ∀ o, c = some o → E.isProxy o = false
  | _ => False

/-- All objects among the arguments are kept alive by the caller. -/
def Args.Held (E : Env) : Args → Prop
  | .one a => E.held a = true
  | .two a b => E.held a = true ∧ E.held b = true
  | .three a b c => E.held a = true ∧ E.held b = true ∧ ∀ o, c = some o → E.held o = true
  | .item a _ => E.held a = true
  | .assItem a _ v => E.held a = true ∧ ∀ o, v = some o → E.held o = true
  | .cmp a b _ => E.held a = true ∧ E.held b = true

/-- Special methods that call nothing but what `ProxyPy` itself checks under their own name. -/
def pyChecked : List Name :=
  ["__call__", "__getitem__", "__setitem__", "__delitem__", "__iter__", "__next__", "__contains__",
   "__len__", "__reduce__", "__reduce_ex__", "__pow__", "__rpow__"] ++
  ([.neg, .pos, .abs, .invert, .complex, .int, .float, .index] : List UnName).map UnName.op ++
  ([.add, .sub, .mul, .mod, .divmod, .lshift, .rshift, .and, .xor, .or, .floordiv, .truediv] :
    List BinName).flatMap fun b => [b.op, b.rop]

/-- In-place operators. -/
def pyInplace : List Name :=
  ([.iadd, .isub, .imul, .imod, .ipow, .ilshift, .irshift, .iand, .ixor, .ior, .ifloordiv, .itruediv] :
    List InName).map InName.op

/-- Methods that `ProxyPy` defines itself: comparisons, `hash`, `bool` and `__length_hint__` without a
check, the others with. -/
def pyOwn : List Name :=
  ["__getattribute__", "__getattr__", "__setattr__", "__delattr__", "__new__", "__init__", "__slots__",
   "__hash__", "__bool__", "__length_hint__", "__str__", "__repr__"] ++
  ([.lt, .le, .eq, .ne, .ge, .gt] : List CmpName).map CmpName.op

/-- The slots that CPython fills for a special method of a class (`Objects/typeobject.c`, `slotdefs`), for the
methods above.  `__length_hint__`, `__complex__`, `__reduce__`, … have none. -/
def slotsFor (n : Name) : List TSlot :=
  (([.add, .sub, .mul, .mod, .divmod, .lshift, .rshift, .and, .xor, .or, .floordiv, .truediv] : List BinName).flatMap
    fun b => if n = b.op ∨ n = b.rop then [TSlot.nb (binSlot b)] else []) ++
  (([.iadd, .isub, .imul, .imod, .ipow, .ilshift, .irshift, .iand, .ixor, .ior, .ifloordiv, .itruediv] :
    List InName).flatMap fun b => if n = b.op then [TSlot.nb (inSlot b)] else []) ++
  (([.neg, .pos, .abs, .invert, .int, .float, .index] : List UnName).flatMap
    fun u => if n = u.op then [TSlot.nb (unSlot u)] else []) ++
  (([.lt, .le, .eq, .ne, .ge, .gt] : List CmpName).flatMap
    fun c => if n = c.op then [TSlot.tp .richcompare] else []) ++
  (([("__call__", .tp .call), ("__getitem__", .mp .subscript), ("__getitem__", .sq .item),
    ("__setitem__", .mp .assSubscript), ("__setitem__", .sq .assItem), ("__delitem__", .mp .assSubscript),
    ("__delitem__", .sq .assItem), ("__iter__", .tp .iter), ("__next__", .tp .iternext),
    ("__contains__", .sq .contains), ("__len__", .sq .length), ("__len__", .mp .length),
    ("__pow__", .nb .power), ("__rpow__", .nb .power), ("__getattribute__", .tp .getattro),
    ("__getattr__", .tp .getattro), ("__setattr__", .tp .setattro), ("__delattr__", .tp .setattro),
    ("__new__", .tp .new), ("__init__", .tp .init), ("__hash__", .tp .hash), ("__bool__", .nb .bool),
    ("__str__", .tp .str), ("__repr__", .tp .repr)] : List (Name × TSlot)).filter (·.1 = n)).map (·.2)

/-- Slots of checkers for which `_zope_security_checker.c` has functions. -/
def checkerSlots : List TSlot :=
  [.mp .subscript, .mp .assSubscript, .tp .dealloc, .tp .traverse, .tp .clear, .tp .init, .tp .new]

end ZS.CM
