import Verif.Model.Proxy

/-!
# What each operation on a security proxy requires and does

A literal table: for every operation that code holding a proxy can apply, which proxy's checker
must be asked, with which checking method and name, and which operation may then be carried out
on the wrapped object.  It mentions none of the model's proxy functions.
-/

namespace ZS.Spec
variable {A : Type}

/-- Special methods of a binary operator: for the left operand, and reflected for the right one. -/
def binNames : BinName → Name × Name
  | .add => ("__add__", "__radd__")
  | .sub => ("__sub__", "__rsub__")
  | .mul => ("__mul__", "__rmul__")
  | .mod => ("__mod__", "__rmod__")
  | .divmod => ("__divmod__", "__rdivmod__")
  | .lshift => ("__lshift__", "__rlshift__")
  | .rshift => ("__rshift__", "__rrshift__")
  | .and => ("__and__", "__rand__")
  | .xor => ("__xor__", "__rxor__")
  | .or => ("__or__", "__ror__")
  | .floordiv => ("__floordiv__", "__rfloordiv__")
  | .truediv => ("__truediv__", "__rtruediv__")

/-- Special methods of an in-place operator: itself, and the plain operator it falls back to. -/
def inNames : InName → Name × Name
  | .iadd => ("__iadd__", "__add__")
  | .isub => ("__isub__", "__sub__")
  | .imul => ("__imul__", "__mul__")
  | .imod => ("__imod__", "__mod__")
  | .ipow => ("__ipow__", "__pow__")
  | .ilshift => ("__ilshift__", "__lshift__")
  | .irshift => ("__irshift__", "__rshift__")
  | .iand => ("__iand__", "__and__")
  | .ixor => ("__ixor__", "__xor__")
  | .ior => ("__ior__", "__or__")
  | .ifloordiv => ("__ifloordiv__", "__floordiv__")
  | .itruediv => ("__itruediv__", "__truediv__")

/-- Special method of a unary operator. -/
def unNames : UnName → Name
  | .neg => "__neg__"
  | .pos => "__pos__"
  | .abs => "__abs__"
  | .invert => "__invert__"
  | .int => "__int__"
  | .float => "__float__"
  | .complex => "__complex__"
  | .index => "__index__"

/-- Special method of a comparison. -/
def cmpNames : CmpName → Name
  | .lt => "__lt__"
  | .le => "__le__"
  | .eq => "__eq__"
  | .ne => "__ne__"
  | .ge => "__ge__"
  | .gt => "__gt__"

/-- What an operation needs. -/
structure Need where
  /-- the proxy whose checker is asked and which is unwrapped -/
  actor : Val
  /-- the checking method -/
  kind : CheckKind
  /-- the name that must be granted -/
  name : Name
  /-- the operation then carried out, given the unwrapped object -/
  carry : Val → RawOp

/-- Attributes of a pure-Python proxy that are read without a check. -/
def freeAttrs : List Name :=
  ["__cmp__", "__hash__", "__bool__", "__lt__", "__le__", "__eq__", "__ne__", "__ge__", "__gt__"]

/-- The requirements of operation `op` on proxy `p`; `none` for the unchecked operations. -/
def need (impl : Impl) (p : Val) : POp → Option Need
  | .getattr n _ =>
    match impl with
    | .c => some ⟨p, .getattr, n, fun w => .getattr w n⟩
    | .py =>
      if n ∈ freeAttrs then none
      else if n = "__reduce__" ∨ n = "__reduce_ex__" ∨ n = "__module__" then
        some ⟨p, .getattr, n, fun w => .getattr w n⟩
      else some ⟨p, .getattr, n, fun w => .baseGetattr w n⟩
  | .setattr n v => some ⟨p, .setattr, n, fun w => .setattr w n v⟩
  | .delattr n => some ⟨p, .setattr, n, fun w => .delattr w n⟩
  | .unop u => some ⟨p, .check, unNames u, fun w => .special (unNames u) w []⟩
  | .call args => some ⟨p, .check, "__call__", fun w => .special "__call__" w args⟩
  | .getitem k => some ⟨p, .check, "__getitem__", fun w => .special "__getitem__" w [k]⟩
  | .setitem k v => some ⟨p, .check, "__setitem__", fun w => .special "__setitem__" w [k, v]⟩
  | .delitem k => some ⟨p, .check, "__delitem__", fun w => .special "__delitem__" w [k]⟩
  | .contains v => some ⟨p, .check, "__contains__", fun w => .special "__contains__" w [v]⟩
  | .len => some ⟨p, .check, "__len__", fun w => .special "__len__" w []⟩
  | .iter => some ⟨p, .check, "__iter__", fun w => .special "__iter__" w []⟩
  | .next => some ⟨p, if impl = .c then .getattr else .check, "__next__", fun w => .special "__next__" w []⟩
  | .binL b o => some ⟨p, .check, (binNames b).1, fun w => .binop (binNames b).1 w o⟩
  | .binR b o =>
    if o.isProxy then some ⟨o, .check, (binNames b).1, fun w => .binop (binNames b).1 w p⟩
    else some ⟨p, .check, (binNames b).2, fun w => .binop (binNames b).1 o w⟩
  | .pow y m => some ⟨p, .check, "__pow__", fun w => .pow w y m⟩
  | .rpow x m =>
    if x.isProxy then some ⟨x, .check, "__pow__", fun w => .pow w p m⟩
    else some ⟨p, .check, "__rpow__", fun w => .pow x w m⟩
  | .pow3 x y =>
    if x.isProxy then some ⟨x, .check, "__pow__", fun w => .pow w y p⟩
    else if y.isProxy then some ⟨y, .check, "__rpow__", fun w => .pow x w p⟩
    else some ⟨p, .check, "__3pow__", fun w => .pow x y w⟩
  | .inplace b o => some ⟨p, .check, (inNames b).1, fun w => .inplace (inNames b).1 w o⟩
  | .str => some ⟨p, .check, "__str__", fun w => .special "__str__" w []⟩
  | .repr => some ⟨p, .check, "__repr__", fun w => .special "__repr__" w []⟩
  | .compare .. | .hash | .bool | .lengthHint => none

/-- The operations a granted request may carry out on the unwrapped object `w`.  The pure-Python
in-place operators fetch and call the special method instead of using the operator. -/
def Carries (impl : Impl) (op : POp) (q : Need) (w : Val) (ro : RawOp) : Prop :=
  match impl, op with
  | .py, .inplace b o => ro = .getattr w (inNames b).1 ∨ ro = .getattr w (inNames b).2 ∨ ∃ m, ro = .call m [o]
  | _, _ => ro = q.carry w

/-- The operations carried out without a check. -/
def Free (impl : Impl) (w : Val) : POp → RawOp → Prop
  | .compare b o, ro => ro = .compare (cmpNames b) w o
  | .hash, ro => ro = .special "__hash__" w []
  | .bool, ro => ro = .special "__bool__" w []
  | .lengthHint, ro =>
    match impl with
    | .c => ro = .method w "__length_hint__" []
    | .py => ro = .getattr w "__length_hint__" ∨ ∃ h, ro = .call h []
  | .getattr n _, ro => impl = .py ∧ n ∈ freeAttrs ∧ ro = .baseGetattr w n
  | _, _ => False

/-- `v` is what a proxy wraps, or what a proxy wrapped by it wraps, and so on. -/
inductive Inside (v : Val) : Val → Prop
  | here {i c} : Inside v (.proxy i v c)
  | deeper {i w c} : Inside v w → Inside v (.proxy i w c)

/-- The one case in which a *check* operates on application objects: the wrapped object is itself a
proxy and the name is `__iter__`; the check asks `hasattr`, which goes through the inner proxy. -/
def NestedLookup (impl : Impl) (w : Val) (n : Name) (ro : RawOp) : Prop :=
  n = "__iter__" ∧ (∃ i u c, w = .proxy i u c) ∧
    match impl with
    | .c => ∃ v, Inside v w ∧ ro = .getattr v n
    | .py => ∃ v, ro = .baseGetattr v n

/-- What a proxy currently wraps and which checker it has: the slots of a compiled proxy never
change, those of a pure-Python proxy can be re-assigned. -/
def current (impl : Impl) (s : St A) : Val → Option (Val × Val)
  | .proxy id w c =>
    match impl with
    | .c => some (w, c)
    | .py => some ((s.ovW id).getD w, (s.ovC id).getD c)
  | _ => none

/-- Operation `ro` may be carried out when `op` is applied to proxy `p` in state `s`: the checker of
the acting proxy granted the required name in `s` and `ro` is the requested operation on the
object it wraps, or `op` is unchecked and `ro` is what it stands for, or `ro` is the lookup of
`__iter__` made by a check through a nested proxy. -/
def Allowed (X : Ctx A) (p : Val) (op : POp) (s : St A) (ro : RawOp) : Prop :=
  match need X.impl p op with
  | some q => ∃ w c, current X.impl s q.actor = some (w, c) ∧
      (NestedLookup X.impl w q.name ro
        ∨ (Carries X.impl op q w ro ∧ ∃ s1, chkCheck X (hasattrX X) q.kind c w q.name s = (.ok (), s1)))
  | none => ∃ w c, current X.impl s p = some (w, c) ∧ Free X.impl w op ro

/-- A `Checker`, or a combination of such. -/
def Ordinary : Val → Prop
  | .checker .. => True
  | .combined _ _ _ c2 => Ordinary c2
  | _ => False

/-- The current thread has no interaction, or one of a built-in policy. -/
def BuiltinOnly (X : Ctx A) (s : St A) : Prop :=
  ∀ ix, (s.threads X.tid).interaction = some ix → ∃ i, ix = .ix i

/-- The compiled proxy has no slot for these. -/
def NoSlot (impl : Impl) (op : POp) : Prop := impl = .c ∧ (op = .unop .complex ∨ op = .unop .index)

/-- Turning the result of a granted operation of a compiled proxy into what the caller gets: the
result under its own protection, a truth value, a length, or nothing. -/
def deliver (X : Ctx A) (p w c : Val) (op : POp) (v : Val) : M A Val :=
  match op with
  | .setattr .. | .delattr .. | .setitem .. | .delitem .. => pure .none
  | .contains _ => pure (.bool (truthy X.W v))
  | .len =>
    match v with
    | .int n => if 0 ≤ n then pure (.int n) else M.throw .valueError
    | _ => M.throw .typeError
  | .inplace .. => if v = w then pure p else chkProxy X c v
  | .str | .repr =>
    match v with
    | .str a t => pure (.str a t)
    | v => if X.W.strSub v then pure v else M.throw .typeError
  | _ => chkProxy X c v

end ZS.Spec
