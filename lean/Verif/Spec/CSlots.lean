import Verif.Spec.CRefine

/-!
# Which function of `_proxy.c` implements which operation on proxies

The tables `proxy_as_number`, `proxy_as_sequence`, `proxy_as_mapping` and `proxy_methods` and the slots of
`SecurityProxyType` (_proxy.c:683-808), with the functions generated by the macros (_proxy.c:548-580).
-/

namespace ZS.CM
variable {A : Type}

/-- The third argument of `pow`. -/
def powArg (I : Interp A) : Ptr → Val
  | .none => .none
  | some o => I.val o

/-- The functions returning objects, called with the proxy `p` as an operand. -/
inductive ObjSlot (E : Env) (I : Interp A) (p : Nat) : C Ptr → POp → Prop
  | getattr {fuel n a : Nat} {t : String} (inside : Bool) : fuel ≤ I.X.fuel → I.val n = .str a t →
      ObjSlot E I p (proxyGetattro E fuel p n) (.getattr t inside)
  | unary {fuel : Nat} (u : UnName) : fuel ≤ I.X.fuel → u ∈ [.neg, .pos, .abs, .invert] →
      ObjSlot E I p (check1 E fuel p (E.const u.op) fun w => api E (.special u.op) [w]) (.unop u)
  | number {fuel : Nat} (u : UnName) : fuel ≤ I.X.fuel → u ∈ [.int, .float] → E.hasNumber (E.wrapped p) = true →
      ObjSlot E I p (check1 E fuel p (E.const u.op) (callNumber E u.op)) (.unop u)
  | call {fuel args : Nat} : fuel ≤ I.X.fuel → ObjSlot E I p (proxyCall E fuel p args .none) (.call ((I.tuple args).map I.val))
  | getitem {fuel k : Nat} : fuel ≤ I.X.fuel → ObjSlot E I p (proxyGetitem E fuel p k) (.getitem (I.val k))
  | igetitem {fuel : Nat} {i : Int} : fuel ≤ I.X.fuel → ObjSlot E I p (proxyIgetitem E fuel p i) (.getitem (.int i))
  | iter {fuel : Nat} : fuel ≤ I.X.fuel → ObjSlot E I p (proxyIter E fuel p) .iter
  | next {fuel : Nat} : fuel ≤ I.X.fuel → ObjSlot E I p (proxyIternext E fuel p) .next
  | binL {fuel o : Nat} (b : BinName) : fuel ≤ I.X.fuel →
      ObjSlot E I p (check2 E fuel p o (E.const b.op) (E.const b.rop) fun x y => api E (.binary b.op) [x, y]) (.binL b (I.val o))
  | binR {fuel o : Nat} (b : BinName) : fuel ≤ I.X.fuel →
      ObjSlot E I p (check2 E fuel o p (E.const b.op) (E.const b.rop) fun x y => api E (.binary b.op) [x, y]) (.binR b (I.val o))
  | pow {fuel y : Nat} {md : Ptr} : fuel ≤ I.X.fuel → ObjSlot E I p (proxyPow E fuel p y md) (.pow (I.val y) (powArg I md))
  | rpow {fuel x : Nat} {md : Ptr} : fuel ≤ I.X.fuel → ObjSlot E I p (proxyPow E fuel x p md) (.rpow (I.val x) (powArg I md))
  | pow3 {fuel x y : Nat} : fuel ≤ I.X.fuel → ObjSlot E I p (proxyPow E fuel x y (some p)) (.pow3 (I.val x) (I.val y))
  | inplace {fuel o : Nat} (b : InName) : fuel ≤ I.X.fuel → b ≠ .ipow →
      ObjSlot E I p (check2i E fuel p o (E.const b.op) fun x y => api E (.inplace b.op) [x, y]) (.inplace b (I.val o))
  | ipow {fuel o : Nat} : fuel ≤ I.X.fuel →
      ObjSlot E I p (check2i E fuel p o (E.const "__ipow__") (callIpow E)) (.inplace .ipow (I.val o))
  | compare {fuel o : Nat} (b : CmpName) : fuel ≤ I.X.fuel → ObjSlot E I p (proxyRichcompare E fuel b.op p o) (.compare b (I.val o))
  | lengthHint : ObjSlot E I p (proxyLengthHint E p) .lengthHint
  | str : ObjSlot E I p (proxyText E p "__str__") .str
  | repr : ObjSlot E I p (proxyText E p "__repr__") .repr

/-- The functions returning an int. -/
inductive IntSlot (E : Env) (I : Interp A) (p : Nat) : C Int → POp → Prop
  | setattr {n a v : Nat} {t : String} : I.val n = .str a t → IntSlot E I p (proxySetattro E p n (some v)) (.setattr t (I.val v))
  | delattr {n a : Nat} {t : String} : I.val n = .str a t → IntSlot E I p (proxySetattro E p n .none) (.delattr t)
  | setitem {k v : Nat} : IntSlot E I p (proxySetitem E p k (some v)) (.setitem (I.val k) (I.val v))
  | delitem {k : Nat} : IntSlot E I p (proxySetitem E p k .none) (.delitem (I.val k))
  | isetitem {i : Int} {v : Nat} : IntSlot E I p (proxyIsetitem E p i (some v)) (.setitem (.int i) (I.val v))
  | idelitem {i : Int} : IntSlot E I p (proxyIsetitem E p i .none) (.delitem (.int i))
  | contains {v : Nat} : IntSlot E I p (proxyContains E p v) (.contains (I.val v))
  | len : IntSlot E I p (proxyLength E p) .len
  | hash : IntSlot E I p (proxyHash E p) .hash
  | bool : IntSlot E I p (proxyBool E p) .bool

/-- The fields of all checkers are as their values say. -/
def Fields (E : Env) (I : Interp A) (m : Mem) (s : St A) : Prop := ∀ c, FieldsOf E I c m s

end ZS.CM
