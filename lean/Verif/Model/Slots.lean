import Verif.Model.CCode
import Verif.Model.Proxy

/-!
# The types: tables of slots and methods, and what they take from their base

Models the static tables of `_proxy.c:682-808` and `_zope_security_checker.c:318-336, 411-486`, the
assignments to them in the initialisation functions (`_proxy.c:943-945`, `_zope_security_checker.c:579`),
the macros that generate functions (`_proxy.c:246-256, 500-580`) and the class statement of `ProxyPy`
with the three loops after it (`proxy.py:66-336`).

C initialises the members of a structure in the order of its declaration, and to 0 if there are no
values left; the comments in the tables count for nothing.  The declarations are CPython's
(`Include/cpython/object.h`), as is `PyType_Ready` (`Objects/typeobject.c`, `inherit_slots` and
`inherit_special`).

Simplifications: `tp_del`, the members that hold numbers and texts, and the members that
`PyType_Ready` fills in by itself (`tp_mro`, …) are left out.
-/

namespace ZS.CM

/-! ## CPython's structures -/

/-- `PyNumberMethods`. -/
inductive Nb
  | add | subtract | multiply | remainder | divmod | power | negative | positive | absolute | bool
  | invert | lshift | rshift | and | xor | or | int | reserved | float
  | inplaceAdd | inplaceSubtract | inplaceMultiply | inplaceRemainder | inplacePower | inplaceLshift
  | inplaceRshift | inplaceAnd | inplaceXor | inplaceOr
  | floorDivide | trueDivide | inplaceFloorDivide | inplaceTrueDivide
  | index | matrixMultiply | inplaceMatrixMultiply
  deriving DecidableEq, Repr

def Nb.members : List Nb :=
  [.add, .subtract, .multiply, .remainder, .divmod, .power, .negative, .positive, .absolute, .bool,
   .invert, .lshift, .rshift, .and, .xor, .or, .int, .reserved, .float,
   .inplaceAdd, .inplaceSubtract, .inplaceMultiply, .inplaceRemainder, .inplacePower, .inplaceLshift,
   .inplaceRshift, .inplaceAnd, .inplaceXor, .inplaceOr,
   .floorDivide, .trueDivide, .inplaceFloorDivide, .inplaceTrueDivide,
   .index, .matrixMultiply, .inplaceMatrixMultiply]

/-- `PySequenceMethods`. -/
inductive Sq
  | length | concat | repeat | item | wasSlice | assItem | wasAssSlice | contains
  | inplaceConcat | inplaceRepeat
  deriving DecidableEq, Repr

def Sq.members : List Sq :=
  [.length, .concat, .repeat, .item, .wasSlice, .assItem, .wasAssSlice, .contains, .inplaceConcat,
   .inplaceRepeat]

/-- `PyMappingMethods`. -/
inductive Mp | length | subscript | assSubscript
  deriving DecidableEq, Repr

def Mp.members : List Mp := [.length, .subscript, .assSubscript]

/-- `PyAsyncMethods`. -/
inductive Am | await | aiter | anext | send
  deriving DecidableEq, Repr

/-- `PyBufferProcs`. -/
inductive Bf | get | release
  deriving DecidableEq, Repr

/-- `PyTypeObject`. -/
inductive Tp
  | name | basicsize | itemsize | dealloc | vectorcallOffset | getattr | setattr | asAsync | repr
  | asNumber | asSequence | asMapping | hash | call | str | getattro | setattro | asBuffer | flags | doc
  | traverse | clear | richcompare | weaklistoffset | iter | iternext | methods | members | getset
  | base | dict | descrGet | descrSet | dictoffset | init | alloc | new | free | isGc | finalize
  deriving DecidableEq, Repr

/-- Up to `tp_is_gc` in order; `tp_finalize` comes after members that nobody writes here. -/
def Tp.members' : List Tp :=
  [.name, .basicsize, .itemsize, .dealloc, .vectorcallOffset, .getattr, .setattr, .asAsync, .repr,
   .asNumber, .asSequence, .asMapping, .hash, .call, .str, .getattro, .setattro, .asBuffer, .flags, .doc,
   .traverse, .clear, .richcompare, .weaklistoffset, .iter, .iternext, .methods, .members, .getset,
   .base, .dict, .descrGet, .descrSet, .dictoffset, .init, .alloc, .new, .free, .isGc]

/-- A slot of a type. -/
inductive TSlot
  | nb (m : Nb) | sq (m : Sq) | mp (m : Mp) | am (m : Am) | bf (m : Bf) | tp (m : Tp)
  deriving DecidableEq, Repr

/-! ## The functions -/

/-- The functions of `_proxy.c` and `_zope_security_checker.c` that tables refer to. -/
inductive CFn
  /-- `BINOP(b, …)` -/
  | bin (b : BinName)
  /-- `INPLACE(b, …)` -/
  | inpl (b : InName)
  /-- `UNOP(u, …)` -/
  | un (u : UnName)
  | pow | bool | length | igetitem | isetitem | contains | getitem | setitem | dealloc | repr | hash | call
  | str | getattro | setattro | traverse | richcompare | iter | iternext | init | new
  | lengthHint
  | checkerDealloc | checkerTraverse | checkerClear | checkerInit | checkerProxy | checkerCheckInt
  | permissionId | setattrPermissionId | checkerCheck | checkerCheckSetattr
  | getGetPermissions | getSetPermissions
  /-- `PyType_GenericAlloc`, `PyType_GenericNew`, `PyObject_GC_Del` -/
  | genericAlloc | genericNew | gcDel
  deriving DecidableEq, Repr

/-- What a member of a structure is initialised to. -/
inductive Cell
  | null
  | fn (f : CFn)
  | number | sequence | mapping
  /-- a text, a size, a table of methods -/
  | data
  deriving DecidableEq, Repr

/-- The value of member `m` of a structure initialised with `vs`. -/
def member [DecidableEq μ] : List μ → List Cell → μ → Cell
  | a :: as, v :: vs, m => if a = m then v else member as vs m
  | _, _, _ => .null

def Cell.fn? : Cell → Option CFn
  | .fn f => some f
  | _ => none

/-! ## The tables of `_proxy.c` -/

/-- `proxy_as_number` (_proxy.c:682-726). -/
def proxyAsNumber : List Cell :=
  [.fn (.bin .add), .fn (.bin .sub), .fn (.bin .mul), .fn (.bin .mod), .fn (.bin .divmod), .fn .pow,
   .fn (.un .neg), .fn (.un .pos), .fn (.un .abs), .fn .bool, .fn (.un .invert),
   .fn (.bin .lshift), .fn (.bin .rshift), .fn (.bin .and), .fn (.bin .xor), .fn (.bin .or),
   .fn (.un .int), .null, .fn (.un .float),
   .fn (.inpl .iadd), .fn (.inpl .isub), .fn (.inpl .imul), .fn (.inpl .imod), .fn (.inpl .ipow),
   .fn (.inpl .ilshift), .fn (.inpl .irshift), .fn (.inpl .iand), .fn (.inpl .ixor), .fn (.inpl .ior),
   .fn (.bin .floordiv), .fn (.bin .truediv), .fn (.inpl .ifloordiv), .fn (.inpl .itruediv)]

/-- `proxy_as_sequence` (_proxy.c:728-738). -/
def proxyAsSequence : List Cell :=
  [.fn .length, .null, .null, .fn .igetitem, .null, .fn .isetitem, .null, .fn .contains]

/-- `proxy_as_mapping` (_proxy.c:740-745). -/
def proxyAsMapping : List Cell := [.fn .length, .fn .getitem, .fn .setitem]

/-- `SecurityProxyType` (_proxy.c:766-808). -/
def proxyType : List Cell :=
  [.data, .data, .null, .fn .dealloc, .null, .null, .null, .null, .fn .repr,
   .number, .sequence, .mapping, .fn .hash, .fn .call, .fn .str, .fn .getattro, .fn .setattro, .null,
   .data, .data, .fn .traverse, .null, .fn .richcompare, .null, .fn .iter, .fn .iternext, .data, .null,
   .null, .null, .null, .null, .null, .null, .fn .init, .null, .fn .new, .null]

/-- `proxy_methods` (_proxy.c:761-765). -/
def proxyMethods : List (String × CFn) := [("__length_hint__", .lengthHint)]

/-- The slots of `SecurityProxyType` when `PyType_Ready` is called (_proxy.c:943-946). -/
def proxyOwn : TSlot → Option CFn
  | .nb m => if member Tp.members' proxyType .asNumber = .number then
      (member Nb.members proxyAsNumber m).fn? else none
  | .sq m => if member Tp.members' proxyType .asSequence = .sequence then
      (member Sq.members proxyAsSequence m).fn? else none
  | .mp m => if member Tp.members' proxyType .asMapping = .mapping then
      (member Mp.members proxyAsMapping m).fn? else none
  | .am _ => none
  | .bf _ => none
  | .tp .alloc => some .genericAlloc
  | .tp .free => some .gcDel
  | .tp m => (member Tp.members' proxyType m).fn?

/-! ## The tables of `_zope_security_checker.c` -/

/-- `Checker_methods` (_zope_security_checker.c:318-336). -/
def checkerMethods : List (String × CFn) :=
  [("permission_id", .permissionId), ("setattr_permission_id", .setattrPermissionId),
   ("check_getattr", .checkerCheck), ("check_setattr", .checkerCheckSetattr), ("check", .checkerCheck),
   ("proxy", .checkerProxy)]

/-- `Checker_getset` (_zope_security_checker.c:411-421); there are no setters. -/
def checkerGetset : List (String × CFn) :=
  [("get_permissions", .getGetPermissions), ("set_permissions", .getSetPermissions)]

/-- `Checker_as_mapping` (_zope_security_checker.c:430-434). -/
def checkerAsMapping : List Cell := [.null, .fn .checkerProxy, .fn .checkerCheckInt]

/-- `CheckerType` (_zope_security_checker.c:438-481). -/
def checkerType : List Cell :=
  [.data, .data, .null, .fn .checkerDealloc, .null, .null, .null, .null, .null,
   .null, .null, .mapping, .null, .null, .null, .null, .null, .null,
   .data, .data, .fn .checkerTraverse, .fn .checkerClear, .null, .null, .null, .null, .data, .null,
   .data, .null, .null, .null, .null, .null, .fn .checkerInit, .null, .null, .null, .null]

/-- The slots of `CheckerType` when `PyType_Ready` is called (_zope_security_checker.c:579-580). -/
def checkerOwn : TSlot → Option CFn
  | .mp m => if member Tp.members' checkerType .asMapping = .mapping then
      (member Mp.members checkerAsMapping m).fn? else none
  | .tp .new => some .genericNew
  | .tp m => (member Tp.members' checkerType m).fn?
  | _ => none

/-! ## `PyType_Ready` -/

/-- A slot of the finished type: its own function, or the base's. -/
def pick (own : Option CFn) (base : Option β) : Option (CFn ⊕ β) :=
  match own with
  | some f => some (.inl f)
  | none => base.map .inr

/-- Slots that are inherited together, if the type defines neither. -/
def together (own : TSlot → Option CFn) (base : TSlot → Option β) (a b s : TSlot) : Option (CFn ⊕ β) :=
  if own a = none ∧ own b = none then (base s).map .inr else (own s).map .inl

/-- The finished type.  Both types have `Py_TPFLAGS_HAVE_GC` (_proxy.c:788, _zope_security_checker.c:462),
so that `tp_traverse` and `tp_clear` are not inherited; a vectorcall function is used only if `tp_call`
is the base's.  (A table that the type lacks altogether is the base's, which comes to the same.) -/
def ready (own : TSlot → Option CFn) (base : TSlot → Option β) : TSlot → Option (CFn ⊕ β)
  | .nb .reserved => (own (.nb .reserved)).map .inl
  | .sq .wasSlice => (own (.sq .wasSlice)).map .inl
  | .sq .wasAssSlice => (own (.sq .wasAssSlice)).map .inl
  | .tp .getattr => together own base (.tp .getattr) (.tp .getattro) (.tp .getattr)
  | .tp .getattro => together own base (.tp .getattr) (.tp .getattro) (.tp .getattro)
  | .tp .setattr => together own base (.tp .setattr) (.tp .setattro) (.tp .setattr)
  | .tp .setattro => together own base (.tp .setattr) (.tp .setattro) (.tp .setattro)
  | .tp .hash => together own base (.tp .hash) (.tp .richcompare) (.tp .hash)
  | .tp .richcompare => together own base (.tp .hash) (.tp .richcompare) (.tp .richcompare)
  | .tp .traverse => (own (.tp .traverse)).map .inl
  | .tp .clear => (own (.tp .clear)).map .inl
  | .tp .vectorcallOffset =>
      match own (.tp .call) with
      | some _ => (own (.tp .vectorcallOffset)).map .inl
      | none => pick (own (.tp .vectorcallOffset)) (base (.tp .vectorcallOffset))
  | s => pick (own s) (base s)

/-! ## What the functions do -/

/-- The arguments of a slot function. -/
inductive Args
  | one (a : Nat)
  | two (a b : Nat)
  | three (a b : Nat) (c : Ptr)
  | item (a : Nat) (i : Int)
  | assItem (a : Nat) (i : Int) (v : Ptr)
  | cmp (a b : Nat) (op : String)
  deriving DecidableEq, Repr

/-- The second argument of `BINOP` (_proxy.c:500-504, 546-550, 577-578): `PyNumber_Add`, … -/
def binCall : BinName → UserFn
  | .add => .binary "__add__" | .sub => .binary "__sub__" | .mul => .binary "__mul__"
  | .mod => .binary "__mod__" | .divmod => .binary "__divmod__" | .lshift => .binary "__lshift__"
  | .rshift => .binary "__rshift__" | .and => .binary "__and__" | .xor => .binary "__xor__"
  | .or => .binary "__or__" | .floordiv => .binary "__floordiv__" | .truediv => .binary "__truediv__"

/-- The second argument of `INPLACE` (_proxy.c:566-575, 579-580): `PyNumber_InPlaceAdd`, …, `call_ipow`. -/
def inCall (E : Env) : InName → Nat → Nat → C Ptr
  | .iadd => fun x y => api E (.inplace "__iadd__") [x, y]
  | .isub => fun x y => api E (.inplace "__isub__") [x, y]
  | .imul => fun x y => api E (.inplace "__imul__") [x, y]
  | .imod => fun x y => api E (.inplace "__imod__") [x, y]
  | .ipow => callIpow E
  | .ilshift => fun x y => api E (.inplace "__ilshift__") [x, y]
  | .irshift => fun x y => api E (.inplace "__irshift__") [x, y]
  | .iand => fun x y => api E (.inplace "__iand__") [x, y]
  | .ixor => fun x y => api E (.inplace "__ixor__") [x, y]
  | .ior => fun x y => api E (.inplace "__ior__") [x, y]
  | .ifloordiv => fun x y => api E (.inplace "__ifloordiv__") [x, y]
  | .itruediv => fun x y => api E (.inplace "__itruediv__") [x, y]

/-- The second argument of `UNOP` (_proxy.c:552-554, 562-564): `PyNumber_Negative`, …, `call_int`,
`call_float`. -/
def unCall (E : Env) : UnName → Nat → C Ptr
  | .neg => fun w => api E (.special "__neg__") [w]
  | .pos => fun w => api E (.special "__pos__") [w]
  | .abs => fun w => api E (.special "__abs__") [w]
  | .invert => fun w => api E (.special "__invert__") [w]
  | .int => callNumber E "__int__"
  | .float => callNumber E "__float__"
  -- there are none for these
  | .complex => fun _ => pure .none
  | .index => fun _ => pure .none

/-- The functions that return an object.  `proxy_ipow` is called with a third argument, which it does not
look at (_proxy.c:708). -/
def runObj (E : Env) (fuel : Nat) : CFn → Args → Option (C Ptr)
  | .bin b, .two x y => some (check2 E fuel x y (E.const b.op) (E.const b.rop) fun x y => api E (binCall b) [x, y])
  | .inpl .ipow, .three x y _ => some (check2i E fuel x y (E.const "__ipow__") (inCall E .ipow))
  | .inpl .ipow, _ => none
  | .inpl b, .two x y => some (check2i E fuel x y (E.const b.op) (inCall E b))
  | .un .complex, _ => none
  | .un .index, _ => none
  | .un u, .one x => some (check1 E fuel x (E.const u.op) (unCall E u))
  | .pow, .three x y m => some (proxyPow E fuel x y m)
  | .igetitem, .item p i => some (proxyIgetitem E fuel p i)
  | .getitem, .two p k => some (proxyGetitem E fuel p k)
  | .repr, .one p => some (proxyText E p "__repr__")
  | .str, .one p => some (proxyText E p "__str__")
  | .call, .three p args kwds => some (proxyCall E fuel p args kwds)
  | .getattro, .two p n => some (proxyGetattro E fuel p n)
  | .richcompare, .cmp p o op => some (proxyRichcompare E fuel op p o)
  | .iter, .one p => some (proxyIter E fuel p)
  | .iternext, .one p => some (proxyIternext E fuel p)
  | .lengthHint, .one p => some (proxyLengthHint E p)
  | .checkerProxy, .two _ v => some (checkerProxy E fuel v)
  | .permissionId, .two c n => some (permissionId E c n)
  | .setattrPermissionId, .two c n => some (setattrPermissionId E c n)
  | .checkerCheck, .three c o (some n) => some (checkerCheck E c o n)
  | .checkerCheckSetattr, .three c o (some n) => some (checkerCheckSetattr E c o n)
  | .getGetPermissions, .one c => some (getGetPermissions E c)
  | .getSetPermissions, .one c => some (getSetPermissions E c)
  | _, _ => none

/-- The functions that return a number. -/
def runInt (E : Env) : CFn → Args → Option (C Int)
  | .bool, .one p => some (proxyBool E p)
  | .length, .one p => some (proxyLength E p)
  | .isetitem, .assItem p i v => some (proxyIsetitem E p i v)
  | .contains, .two p v => some (proxyContains E p v)
  | .setitem, .three p k v => some (proxySetitem E p k v)
  | .hash, .one p => some (proxyHash E p)
  | .setattro, .three p n v => some (proxySetattro E p n v)
  | .checkerCheckInt, .three c o n => some (checkInt E c o n)
  | .checkerClear, .one c => some (checkerClear E c)
  | .checkerInit, .three c g s => some (checkerInit E c g s)
  | _, _ => none

/-! ## The class `ProxyPy` -/

/-- An attribute of the class `ProxyPy`. -/
inductive PyAttr
  /-- defined in the class statement -/
  | own (n : Name)
  /-- `_check_name(meth)`, `meth.__name__` being `n`; with or without `wrap_result` -/
  | checked (n : Name) (wrap : Bool)
  /-- `_check_name_inplace(meth)` -/
  | inplace (n : Name)
  deriving DecidableEq, Repr

/-- A class: attribute by attribute. -/
abbrev Dict := Name → Option PyAttr

/-- The class statement (proxy.py:66-254). -/
def proxyPyOwn : List Name :=
  ["__slots__", "__new__", "__init__", "__getattribute__", "__getattr__", "__setattr__", "__delattr__",
   "__lt__", "__le__", "__eq__", "__ne__", "__ge__", "__gt__", "__hash__", "__bool__", "__length_hint__",
   "__str__", "__repr__"]

/-- The first loop (proxy.py:257-312). -/
def proxyPyChecked : List Name :=
  ["__call__", "__reduce__", "__reduce_ex__", "__getitem__", "__setitem__", "__delitem__", "__iter__",
   "__next__", "__contains__", "__neg__", "__pos__", "__abs__", "__invert__", "__complex__", "__int__",
   "__float__", "__index__", "__add__", "__sub__", "__mul__", "__truediv__", "__floordiv__", "__mod__",
   "__divmod__", "__pow__", "__radd__", "__rsub__", "__rmul__", "__rtruediv__", "__rfloordiv__",
   "__rmod__", "__rdivmod__", "__rpow__", "__lshift__", "__rshift__", "__and__", "__xor__", "__or__",
   "__rlshift__", "__rrshift__", "__rand__", "__rxor__", "__ror__"]

/-- The second loop (proxy.py:314-318). -/
def proxyPyPlain : List Name := ["__len__"]

/-- The third loop (proxy.py:320-334). -/
def proxyPyInplace : List Name :=
  ["__iadd__", "__isub__", "__imul__", "__itruediv__", "__ifloordiv__", "__imod__", "__ilshift__",
   "__irshift__", "__iand__", "__ixor__", "__ior__", "__ipow__"]

/-- `setattr(ProxyPy, n, a)`. -/
def Dict.set (d : Dict) (n : Name) (a : PyAttr) : Dict := fun m => if m = n then some a else d m

/-- `for name in l: meth = getattr(PyProxyBase, name); setattr(ProxyPy, name, f(meth))`.  `base n` is
`PyProxyBase.n.__name__`.  `none`: an `AttributeError`, the module cannot be imported. -/
def wrapAll (base : Name → Option Name) (f : Name → PyAttr) : List Name → Dict → Option Dict
  | [], d => some d
  | n :: l, d =>
      match base n with
      | some m => wrapAll base f l (d.set n (f m))
      | none => none

/-- The finished class. -/
def proxyClass (base : Name → Option Name) : Option Dict :=
  match wrapAll base (.checked · true) proxyPyChecked
      (fun n => if n ∈ proxyPyOwn then some (.own n) else none) with
  | some d =>
      match wrapAll base (.checked · false) proxyPyPlain d with
      | some d => wrapAll base .inplace proxyPyInplace d
      | none => none
  | none => none

/-- Looking up an attribute in the type of a proxy, as the interpreter does for special methods: the
class's own, or the base's. -/
def classAttr (d : Dict) (base : Name → Option Name) (n : Name) : Option (PyAttr ⊕ Name) :=
  match d n with
  | some a => some (.inl a)
  | none => (base n).map .inr

end ZS.CM
