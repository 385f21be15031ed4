import Verif.Model.CCode

/-!
# What a passed check looks like in the log of calls

Nothing is assumed about how other code answers.
-/

namespace ZS.CM

/-- An operation carried out for the user of a proxy. -/
def Ask.isUser (a : Ask) : Bool :=
  match a.fn with
  | .user _ => true
  | _ => false

/-- No operations are carried out for the user. -/
def NoUser (l : List Ask) : Prop := ∀ a ∈ l, a.isUser = false

/-- The dictionary has no entry: there is no dictionary, or the lookup found nothing. -/
inductive Missing (name : Nat) : Ptr → List Ask → Prop
  | noDict : Missing name .none []
  | notFound {d : Nat} {e : Raised} {r : Reply} : r.null = true → Missing name (some d) [⟨.dictGet, [d, name], e, r⟩]

/-- The calls, the earliest first, by which a native checker with this dictionary of read permissions comes
to grant a name on an object. -/
inductive Grants (E : Env) (object name : Nat) : Ptr → List Ask → Prop
  /-- The permission is `CheckerPublic`. -/
  | isPublic {d : Nat} {e : Raised} {r : Reply} : r.null = false → r.obj = E.checkerPublic →
      Grants E object name (some d) [⟨.dictGet, [d, name], e, r⟩]
  /-- The permission is another one and the interaction answers the question about the permission and the object with something true. -/
  | permitted {d : Nat} {e1 e2 e3 e4 e5 e6 : Raised} {r1 r2 r3 r4 r5 r6 : Reply} : r1.null = false →
      r1.obj ≠ E.checkerPublic → r2.null = false → r3.null = false → 0 < r5.num →
      Grants E object name (some d) [⟨.dictGet, [d, name], e1, r1⟩, ⟨.getAttr, [E.threadLocal, E.const "interaction"], e2, r2⟩,
        ⟨.callMethod, [r2.obj, E.const "checkPermission", r1.obj, object], e3, r3⟩, ⟨.destroy, [r2.obj], e4, r4⟩,
        ⟨.isTrue, [r3.obj], e5, r5⟩, ⟨.destroy, [r3.obj], e6, r6⟩]
  /-- The name is not declared, begins with two underscores and is among those available by default. -/
  | available {perms : Ptr} {l : List Ask} {e1 e2 e3 : Raised} {r1 r2 r3 : Reply} : Missing name perms l → E.isStr name = true →
      r1.null = false → (E.bytes r1.obj)[0]? = some '_' → r2.null = false → (E.bytes r2.obj)[1]? = some '_' → 0 < r3.num →
      Grants E object name perms (l ++ [⟨.utf8, [name], e1, r1⟩, ⟨.utf8, [name], e2, r2⟩, ⟨.contains, [E.available, name], e3, r3⟩])
  /-- The name is `__iter__`, neither declared nor available, and the object does not have it. -/
  | noIter {perms : Ptr} {l : List Ask} {e1 e2 e3 e4 e5 : Raised} {r1 r2 r3 r4 r5 : Reply} : Missing name perms l → E.isStr name = true →
      r1.null = false → (E.bytes r1.obj)[0]? = some '_' → r2.null = false → (E.bytes r2.obj)[1]? = some '_' → r3.num = 0 →
      r4.null = false → E.bytes r4.obj = "__iter__".toList → r5.num = 0 →
      Grants E object name perms (l ++ [⟨.utf8, [name], e1, r1⟩, ⟨.utf8, [name], e2, r2⟩, ⟨.contains, [E.available, name], e3, r3⟩,
        ⟨.utf8, [name], e4, r4⟩, ⟨.hasAttr, [object, name], e5, r5⟩])

/-- The calls by which the checker of a proxy comes to grant a name. -/
inductive Passes (E : Env) (m : Mem) (self : Nat) (meth : String) (name : Nat) : List Ask → Prop
  /-- The method of the checker was called with the wrapped object and the name, and did not raise. -/
  | method {e1 e2 : Raised} {r1 r2 : Reply} : meth = "check_setattr" ∨ E.assSlot (E.checkerOf self) = .absent → r1.null = false →
      Passes E m self meth name [⟨.callMethod, [E.checkerOf self, E.const meth, E.wrapped self, name], e1, r1⟩, ⟨.destroy, [r1.obj], e2, r2⟩]
  /-- The checker's own slot was called with the wrapped object and the name, and did not raise. -/
  | slot {e : Raised} {r : Reply} : meth ≠ "check_setattr" → E.assSlot (E.checkerOf self) = .foreign → 0 ≤ r.num →
      Passes E m self meth name [⟨.assSubscript, [E.checkerOf self, E.wrapped self, name], e, r⟩]
  /-- The checker is a native one. -/
  | native {l : List Ask} : meth ≠ "check_setattr" → E.assSlot (E.checkerOf self) = .native →
      Grants E (E.wrapped self) name (m.getperms (E.checkerOf self)) l → Passes E m self meth name l

/-- From this checker or factory of checkers the calls lead to that checker. -/
inductive Chain (E : Env) (v : Nat) : Nat → Nat → List Ask → Prop
  | done {c : Nat} : E.isChecker c = true → Chain E v c c []
  | step {c c' : Nat} {e1 e2 : Raised} {r1 r2 : Reply} {l : List Ask} : E.isChecker c = false → r1.null = false → r1.obj ≠ E.noProxy →
      r1.obj ≠ E.none → Chain E v r1.obj c' l → Chain E v c c' (⟨.call, [c, v], e1, r1⟩ :: ⟨.destroy, [c], e2, r2⟩ :: l)

/-- From this factory of checkers the calls lead to `NoProxy` or `None`. -/
inductive Declines (E : Env) (v : Nat) : Nat → List Ask → Prop
  | last {c : Nat} {e1 e2 e3 : Raised} {r1 r2 r3 : Reply} : E.isChecker c = false → r1.null = false → r1.obj = E.noProxy ∨ r1.obj = E.none →
      Declines E v c [⟨.call, [c, v], e1, r1⟩, ⟨.destroy, [c], e2, r2⟩, ⟨.destroy, [r1.obj], e3, r3⟩]
  | step {c : Nat} {e1 e2 : Raised} {r1 r2 : Reply} {l : List Ask} : E.isChecker c = false → r1.null = false → r1.obj ≠ E.noProxy →
      r1.obj ≠ E.none → Declines E v r1.obj l → Declines E v c (⟨.call, [c, v], e1, r1⟩ :: ⟨.destroy, [c], e2, r2⟩ :: l)

/-- What is registered for the type of the object, with the calls to find out; exceptions for which nothing is registered
do not count. -/
inductive Registered (E : Env) (v : Nat) : Nat → List Ask → Prop
  | found {e : Raised} {r : Reply} : r.null = false → r.obj ≠ E.noProxy → r.obj ≠ E.defaultChecker →
      Registered E v r.obj [⟨.dictGet, [E.checkers, E.typeOf v], e, r⟩]
  | byDefault {e1 e2 : Raised} {r1 r2 : Reply} : r1.null = true ∨ r1.obj = E.defaultChecker → E.defaultChecker ≠ E.noProxy → r2.num = 0 →
      Registered E v E.defaultChecker [⟨.dictGet, [E.checkers, E.typeOf v], e1, r1⟩, ⟨.isInstance, [v, E.const "Exception"], e2, r2⟩]

/-- Nothing is to be done about the object: `NoProxy` is registered for its type, or it may be an exception for which
nothing is registered, or a factory declined. -/
inductive Exempt (E : Env) (v : Nat) : List Ask → Prop
  | noProxy {e : Raised} {r : Reply} : (if r.null then E.defaultChecker else r.obj) = E.noProxy →
      Exempt E v [⟨.dictGet, [E.checkers, E.typeOf v], e, r⟩]
  | exception {e1 e2 : Raised} {r1 r2 : Reply} : r1.null = true ∨ r1.obj = E.defaultChecker → r2.num ≠ 0 →
      Exempt E v [⟨.dictGet, [E.checkers, E.typeOf v], e1, r1⟩, ⟨.isInstance, [v, E.const "Exception"], e2, r2⟩]
  | declined {c : Nat} {l l' : List Ask} : Registered E v c l → Declines E v c l' → Exempt E v (l ++ l')

/-- What the native `proxy` function makes of an object, with the calls. -/
inductive Wraps (E : Env) (v : Nat) : Ptr → List Ask → Prop
  /-- An exception. -/
  | failed {l : List Ask} : Wraps E v .none l
  /-- Proxies are not wrapped again. -/
  | already : E.exactProxy v = true → Wraps E v (some v) []
  /-- A new proxy with the checker the object brings along. -/
  | own {e1 e2 e3 : Raised} {r1 r2 r3 : Reply} : E.exactProxy v = false → r1.null = false → r1.obj ≠ E.none → r2.null = false →
      Wraps E v (some r2.obj) [⟨.getAttr, [v, E.const "__Security_checker__"], e1, r1⟩, ⟨.call, [E.proxyType, v, r1.obj], e2, r2⟩,
        ⟨.destroy, [r1.obj], e3, r3⟩]
  /-- A new proxy with the checker found for the object. -/
  | selected {c c' : Nat} {e1 e2 e3 : Raised} {r1 r2 r3 : Reply} {l l' : List Ask} : E.exactProxy v = false → r1.null = true →
      Registered E v c l → Chain E v c c' l' → r2.null = false →
      Wraps E v (some r2.obj) (⟨.getAttr, [v, E.const "__Security_checker__"], e1, r1⟩ :: l ++ l' ++ [⟨.call, [E.proxyType, v, c'], e2, r2⟩,
        ⟨.destroy, [c'], e3, r3⟩])
  /-- The object itself. -/
  | bare {e1 e2 : Raised} {r1 r2 : Reply} {l : List Ask} : E.exactProxy v = false → r1.null = true → Exempt E v l →
      Wraps E v (some v) (⟨.getAttr, [v, E.const "__Security_checker__"], e1, r1⟩ :: l ++ [⟨.destroy, [E.none], e2, r2⟩])

/-- What the checker of the proxy makes of the result of an operation, with the calls. -/
inductive Covers (E : Env) (self v : Nat) : Ptr → List Ask → Prop
  | native {p : Ptr} {l : List Ask} : E.subSlot (E.checkerOf self) = .native → Wraps E v p l → Covers E self v p l
  | slot {e : Raised} {r : Reply} : E.subSlot (E.checkerOf self) = .foreign →
      Covers E self v (if r.null then .none else some r.obj) [⟨.subscript, [E.checkerOf self, v], e, r⟩]
  | method {e : Raised} {r : Reply} : E.subSlot (E.checkerOf self) = .absent →
      Covers E self v (if r.null then .none else some r.obj) [⟨.callMethod, [E.checkerOf self, E.const "proxy", v], e, r⟩]

/-- What is handed out after an operation that answered with this: NULL if it failed, else what the checker makes of it. -/
def HandsOut (E : Env) (self : Nat) (r : Reply) (p : Ptr) (post : List Ask) : Prop :=
  if r.null then p = .none ∧ post = []
  else ∃ l e1 r1, post = l ++ [⟨.destroy, [r.obj], e1, r1⟩] ∧ Covers E self r.obj p l

/-- What operations hand out: for str and repr, the result itself; for in-place operations that give the object itself, the
proxy. -/
inductive Result (E : Env) (self : Nat) : UserFn → Reply → Ptr → List Ask → Prop
  | text {u : UserFn} {r : Reply} : u = .special "__str__" ∨ u = .special "__repr__" →
      Result E self u r (if r.null then .none else some r.obj) []
  | same {op : String} {e1 : Raised} {r r1 : Reply} : r.null = false → r.obj = E.wrapped self →
      Result E self (.inplace op) r (some self) [⟨.destroy, [E.wrapped self], e1, r1⟩]
  | other {u : UserFn} {r : Reply} {p : Ptr} {post : List Ask} : u ≠ .special "__str__" → u ≠ .special "__repr__" →
      (∀ op, u = .inplace op → r.null = false → r.obj ≠ E.wrapped self) → HandsOut E self r p post → Result E self u r p post

/-- The code carries out at most one operation for the user, namely this one on these objects, and only
after the checker of the proxy `self` has granted the name. -/
def Mediated {α : Type} (E : Env) (x : C α) (self : Nat) (meth : String) (name : Nat) (u : UserFn) (args : List Nat) : Prop :=
  ∀ m a m', x m = .ok a m' → ∃ l, m'.asked = l.reverse ++ m.asked ∧
    (NoUser l ∨ ∃ pre e r post, l = pre ++ ⟨.user u, args, e, r⟩ :: post ∧ Passes E m self meth name pre ∧ NoUser pre ∧ NoUser post)

/-- As `Mediated`; and what is returned is what the checker makes of the result, or NULL if nothing was carried out. -/
def Protected (E : Env) (x : C Ptr) (self : Nat) (meth : String) (name : Nat) (u : UserFn) (args : List Nat) : Prop :=
  ∀ m a m', x m = .ok a m' → ∃ l, m'.asked = l.reverse ++ m.asked ∧
    (NoUser l ∧ (a = .none ∨ u = .special "__str__" ∨ u = .special "__repr__") ∨
      ∃ pre e r post, l = pre ++ ⟨.user u, args, e, r⟩ :: post ∧ Passes E m self meth name pre ∧ NoUser pre ∧ NoUser post ∧ Result E self u r a post)

/-- The code carries out nothing for the user. -/
def Idle {α : Type} (x : C α) : Prop := ∀ m a m', x m = .ok a m' → ∃ l, m'.asked = l.reverse ++ m.asked ∧ NoUser l

/-- The code carries out this operation, once and before all other calls. -/
def Direct {α : Type} (x : C α) (u : UserFn) (args : List Nat) : Prop :=
  ∀ m a m', x m = .ok a m' → ∃ r e post, m'.asked = (⟨.user u, args, e, r⟩ :: post).reverse ++ m.asked ∧ NoUser post

/-- The functions of the C proxy type that carry out operations after a check: the proxy whose checker is
asked, the method, the name, and the operation with its arguments (_proxy.c:183-808). -/
inductive CheckedObj (E : Env) : C Ptr → Nat → String → Nat → UserFn → List Nat → Prop
  | getattr {fuel self n : Nat} : CheckedObj E (proxyGetattro E fuel self n) self "check_getattr" n .getAttr [E.wrapped self, n]
  | unary {fuel self : Nat} (op : String) : op ∈ ["__neg__", "__pos__", "__abs__", "__invert__"] →
      CheckedObj E (check1 E fuel self (E.const op) fun w => api E (.special op) [w]) self "check" (E.const op) (.special op) [E.wrapped self]
  | number {fuel self : Nat} (op : String) : op ∈ ["__int__", "__float__"] →
      CheckedObj E (check1 E fuel self (E.const op) (callNumber E op)) self "check" (E.const op) (.special op) [E.wrapped self]
  | call {fuel self args : Nat} {kwds : Ptr} : CheckedObj E (proxyCall E fuel self args kwds) self "check" (E.const "__call__") (.special "__call__")
      ([E.wrapped self, args] ++ kwds.toList)
  | getitem {fuel self k : Nat} : CheckedObj E (proxyGetitem E fuel self k) self "check" (E.const "__getitem__") (.special "__getitem__")
      [E.wrapped self, k]
  | iter {fuel self : Nat} : CheckedObj E (proxyIter E fuel self) self "check" (E.const "__iter__") (.special "__iter__") [E.wrapped self]
  | next {fuel self : Nat} : CheckedObj E (proxyIternext E fuel self) self "check_getattr" (E.const "__next__") (.special "__next__") [E.wrapped self]
  | binL {fuel self o : Nat} (op rop : String) : E.isProxy self = true →
      CheckedObj E (check2 E fuel self o (E.const op) (E.const rop) fun x y => api E (.binary op) [x, y]) self "check" (E.const op)
        (.binary op) [E.wrapped self, o]
  | binR {fuel self o : Nat} (op rop : String) : E.isProxy o = false → E.isProxy self = true →
      CheckedObj E (check2 E fuel o self (E.const op) (E.const rop) fun x y => api E (.binary op) [x, y]) self "check" (E.const rop)
        (.binary op) [o, E.wrapped self]
  | inplace {fuel self o : Nat} (op : String) :
      CheckedObj E (check2i E fuel self o (E.const op) fun x y => api E (.inplace op) [x, y]) self "check" (E.const op)
        (.inplace op) [E.wrapped self, o]
  | ipow {fuel self o : Nat} : CheckedObj E (check2i E fuel self o (E.const "__ipow__") (callIpow E)) self "check" (E.const "__ipow__")
        (.inplace "__ipow__") [E.wrapped self, o, E.none]
  | pow {fuel self y : Nat} {md : Ptr} : E.isProxy self = true →
      CheckedObj E (proxyPow E fuel self y md) self "check" (E.const "__pow__") .power ([E.wrapped self, y] ++ md.toList)
  | rpow {fuel self x : Nat} {md : Ptr} : E.isProxy x = false → E.isProxy self = true →
      CheckedObj E (proxyPow E fuel x self md) self "check" (E.const "__rpow__") .power ([x, E.wrapped self] ++ md.toList)
  | pow3 {fuel self x y : Nat} : E.isProxy x = false → E.isProxy y = false → E.isProxy self = true →
      CheckedObj E (proxyPow E fuel x y (some self)) self "check" (E.const "__3pow__") .power [x, y, E.wrapped self]
  | text {self : Nat} (op : String) : op ∈ ["__str__", "__repr__"] → CheckedObj E (proxyText E self op) self "check" (E.const op) (.special op) [E.wrapped self]

/-- The same for functions returning an int. -/
inductive CheckedInt (E : Env) : C Int → Nat → String → Nat → UserFn → List Nat → Prop
  | setattr {self n v : Nat} : CheckedInt E (proxySetattro E self n (some v)) self "check_setattr" n .setAttr [E.wrapped self, n, v]
  | delattr {self n : Nat} : CheckedInt E (proxySetattro E self n .none) self "check_setattr" n .delAttr [E.wrapped self, n]
  | setitem {self k v : Nat} : CheckedInt E (proxySetitem E self k (some v)) self "check" (E.const "__setitem__") (.special "__setitem__")
      [E.wrapped self, k, v]
  | delitem {self k : Nat} : CheckedInt E (proxySetitem E self k .none) self "check" (E.const "__delitem__") (.special "__delitem__")
      [E.wrapped self, k]
  | contains {self v : Nat} : CheckedInt E (proxyContains E self v) self "check" (E.const "__contains__") (.special "__contains__")
      [E.wrapped self, v]
  | len {self : Nat} : CheckedInt E (proxyLength E self) self "check" (E.const "__len__") (.special "__len__") [E.wrapped self]

/-- Access by index makes a Python int first; `args` are the arguments given this int. -/
inductive CheckedAt (E : Env) (i : Int) : {α : Type} → C α → Nat → Nat → UserFn → (Nat → List Nat) → Prop
  | get {fuel self : Nat} : CheckedAt E i (proxyIgetitem E fuel self i) self (E.const "__getitem__") (.special "__getitem__")
      fun k => [E.wrapped self, k]
  | set {self v : Nat} : CheckedAt E i (proxyIsetitem E self i (some v)) self (E.const "__setitem__") (.special "__setitem__")
      fun k => [E.wrapped self, k, v]
  | del {self : Nat} : CheckedAt E i (proxyIsetitem E self i .none) self (E.const "__delitem__") (.special "__delitem__")
      fun k => [E.wrapped self, k]

/-- As `Mediated`, for access by index. -/
def MediatedAt {α : Type} (E : Env) (i : Int) (x : C α) (self : Nat) (name : Nat) (u : UserFn) (args : Nat → List Nat) : Prop :=
  ∀ m a m', x m = .ok a m' → ∃ l, m'.asked = l.reverse ++ m.asked ∧
    (NoUser l ∨ ∃ e0 k pre e r post, l = ⟨.fromLong i, [], e0, k⟩ :: pre ++ ⟨.user u, args k.obj, e, r⟩ :: post ∧ k.null = false ∧
      Passes E m self "check" name pre ∧ NoUser pre ∧ NoUser post)

/-- The functions that do not check: comparison, hash, truth and `__length_hint__`. -/
inductive Unchecked (E : Env) : {α : Type} → C α → UserFn → List Nat → Prop
  | compare {fuel self o : Nat} (op : String) : Unchecked E (proxyRichcompare E fuel op self o) (.compare op) [E.wrapped self, o]
  | hash {self : Nat} : Unchecked E (proxyHash E self) (.special "__hash__") [E.wrapped self]
  | bool {self : Nat} : Unchecked E (proxyBool E self) (.special "__bool__") [E.wrapped self]
  | lengthHint {self : Nat} : Unchecked E (proxyLengthHint E self) (.method "__length_hint__") [E.wrapped self]

/-- Functions that carry out nothing for the user: operators without a proxy among the operands, and the functions of
checkers. -/
inductive Passive (E : Env) : {α : Type} → C α → Prop
  | binary {fuel x y op rop : Nat} {f : Nat → Nat → C Ptr} : E.isProxy x = false → E.isProxy y = false → Passive E (check2 E fuel x y op rop f)
  | pow {fuel x y : Nat} {md : Ptr} : E.isProxy x = false → E.isProxy y = false → (∀ o, md = some o → E.isProxy o = false) →
      Passive E (proxyPow E fuel x y md)
  | new {type o c : Nat} : Passive E (proxyNew E type o c)
  | getChecker {o : Nat} : Passive E (getChecker E o)
  | getObject {o : Nat} : Passive E (getObject E o)
  | permissionId {c n : Nat} : Passive E (permissionId E c n)
  | setattrPermissionId {c n : Nat} : Passive E (setattrPermissionId E c n)
  | checkInt {c o : Nat} {n : Ptr} : Passive E (checkInt E c o n)
  | check {c o n : Nat} : Passive E (checkerCheck E c o n)
  | checkSetattr {c o n : Nat} : Passive E (checkerCheckSetattr E c o n)
  | select {fuel o : Nat} : Passive E (selectChecker E fuel o)
  | proxy {fuel v : Nat} : Passive E (checkerProxy E fuel v)

end ZS.CM
