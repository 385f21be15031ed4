import Verif.Model.Select

/-!
# Security proxies: every special method of both implementations

Models _proxy.c:123-678 and proxy.py:27-336.
-/

namespace ZS
variable {A : Type}

/-! ## Operators -/

/-- Binary operators implemented by `BINOP` (_proxy.c:500-575) and proxy.py:277-310; `pow` is
separate. -/
inductive BinName where
  | add | sub | mul | mod | divmod | lshift | rshift | and | xor | or | floordiv | truediv
  deriving DecidableEq, Repr

/-- Name checked on the left operand (_proxy.c:866-919, proxy.py:277-306). -/
def BinName.op : BinName → Name
  | .add => "__add__" | .sub => "__sub__" | .mul => "__mul__" | .mod => "__mod__"
  | .divmod => "__divmod__" | .lshift => "__lshift__" | .rshift => "__rshift__"
  | .and => "__and__" | .xor => "__xor__" | .or => "__or__"
  | .floordiv => "__floordiv__" | .truediv => "__truediv__"

/-- Name checked on the right operand (_proxy.c:866-919, proxy.py:285-311). -/
def BinName.rop : BinName → Name
  | .add => "__radd__" | .sub => "__rsub__" | .mul => "__rmul__" | .mod => "__rmod__"
  | .divmod => "__rdivmod__" | .lshift => "__rlshift__" | .rshift => "__rrshift__"
  | .and => "__rand__" | .xor => "__rxor__" | .or => "__ror__"
  | .floordiv => "__rfloordiv__" | .truediv => "__rtruediv__"

/-- In-place operators (_proxy.c:563-580, proxy.py:322-334). -/
inductive InName where
  | iadd | isub | imul | imod | ipow | ilshift | irshift | iand | ixor | ior | ifloordiv | itruediv
  deriving DecidableEq, Repr

/-- Name checked for an in-place operator. -/
def InName.op : InName → Name
  | .iadd => "__iadd__" | .isub => "__isub__" | .imul => "__imul__" | .imod => "__imod__"
  | .ipow => "__ipow__" | .ilshift => "__ilshift__" | .irshift => "__irshift__"
  | .iand => "__iand__" | .ixor => "__ixor__" | .ior => "__ior__"
  | .ifloordiv => "__ifloordiv__" | .itruediv => "__itruediv__"

/-- `'__%s__' % name[3:-2]` (proxy.py:53): the plain operator of an in-place name. -/
def InName.plain : InName → Name
  | .iadd => "__add__" | .isub => "__sub__" | .imul => "__mul__" | .imod => "__mod__"
  | .ipow => "__pow__" | .ilshift => "__lshift__" | .irshift => "__rshift__"
  | .iand => "__and__" | .ixor => "__xor__" | .ior => "__or__"
  | .ifloordiv => "__floordiv__" | .itruediv => "__truediv__"

/-- Unary operators: the first six in both implementations (_proxy.c:549-561), `complex` and
`index` in Python only (proxy.py:272-276). -/
inductive UnName where
  | neg | pos | abs | invert | int | float | complex | index
  deriving DecidableEq, Repr

/-- Name checked for a unary operator. -/
def UnName.op : UnName → Name
  | .neg => "__neg__" | .pos => "__pos__" | .abs => "__abs__" | .invert => "__invert__"
  | .int => "__int__" | .float => "__float__" | .complex => "__complex__" | .index => "__index__"

/-- Rich comparisons. -/
inductive CmpName where
  | lt | le | eq | ne | ge | gt
  deriving DecidableEq, Repr

/-- Special method of a comparison. -/
def CmpName.op : CmpName → Name
  | .lt => "__lt__" | .le => "__le__" | .eq => "__eq__" | .ne => "__ne__" | .ge => "__ge__" | .gt => "__gt__"

/-! ## Contracts of the runtime's own conversions -/

/-- `len()` gives a non-negative int. -/
def asLen : Val → M A Val
  | .int n => if 0 ≤ n then pure (.int n) else M.throw .valueError
  | _ => M.throw .typeError

/-- `hash()` gives an int. -/
def asInt : Val → M A Val
  | .int n => pure (.int n)
  | _ => M.throw .typeError

/-- `str()`/`repr()` give a `str` or an instance of a subclass. -/
def asStr (W : World A) (v : Val) : M A Val :=
  match v with
  | .str a s => pure (.str a s)
  | v => if W.strSub v then pure v else M.throw .typeError

/-- The characters of a string value (`MAKE_STRING`, _proxy.c:26-27). -/
def asName : Val → M A String
  | .str _ s => pure s
  | _ => M.throw .typeError

/-! ## hasattr and attribute access -/

/-- `hasattr` on an unproxied value.  Python's swallows AttributeError only (checker.py:274);
`PyObject_HasAttr` swallows everything (_zope_security_checker.c:182). -/
def hasattrOf (X : Ctx A) (x : M A Val) : M A Bool := fun s =>
  match x s with
  | (.ok _, s') => (.ok true, s')
  | (.err e, s') =>
    match X.impl with
    | .c => (.ok false, s')
    | .py => if e.isAttr then (.ok false, s') else (.err e, s')
  | (.diverge, s') => (.diverge, s')

/-- `proxy_getattro` (_proxy.c:362-373). -/
def getattroC (X : Ctx A) (H : Val → Name → M A Bool) (w c : Val) (n : Name) : M A Val := do
  chkCheck X H .getattr c w n
  let r ← perform X (.getattr w n)
  chkProxy X c r

/-- The names `ProxyPy.__getattribute__` does not check (proxy.py:106-108). -/
def pyUncheckedAttrs : List Name :=
  ["__cmp__", "__hash__", "__bool__", "__lt__", "__le__", "__eq__", "__ne__", "__ge__", "__gt__"]

/-- The check of `ProxyPy.__getattribute__` (proxy.py:106-115). -/
def getattributeCheckPy (X : Ctx A) (H : Val → Name → M A Bool) (c w : Val) (n : Name) : M A Unit :=
  if n ∈ pyUncheckedAttrs then pure () else chkCheck X H .getattr c w n

/-- `ProxyPy.__getattribute__` (proxy.py:95-134).  `inside` says that the calling frame has a
local variable `self` bound to this proxy. -/
def getattributePy (X : Ctx A) (H : Val → Name → M A Bool) (id : Nat) (w0 c0 : Val) (n : Name)
    (inside : Bool) : M A Val := do
  if (n = "_wrapped" ∨ n = "_checker") ∧ inside = false then M.throw (.attributeError n)
  else do
    let s ← M.get
    let w := proxyWrapped X s id w0
    let c := proxyChecker X s id c0
    if n = "_wrapped" then pure w
    else if n = "_checker" then pure c
    else do
      getattributeCheckPy X H c w n
      if n = "__reduce__" ∨ n = "__reduce_ex__" ∨ n = "__module__" then do
        let v ← perform X (.getattr w n)
        chkProxy X c v
      else do
        let s1 ← M.get
        let v ← perform X (.baseGetattr (proxyWrapped X s1 id w0) n)
        chkProxy X c v

/-- `ProxyPy.__getattr__` (proxy.py:136-159). -/
def getattrHookPy (X : Ctx A) (H : Val → Name → M A Bool) (id : Nat) (w0 c0 : Val) (n : Name) : M A Val := do
  let s ← M.get
  chkCheck X H .getattr (proxyChecker X s id c0) (proxyWrapped X s id w0) n
  M.throw (.attributeError n)

/-- `p.n` on a pure-Python proxy: `__getattribute__`, and `__getattr__` when that raised an
AttributeError. -/
def getattrPy (X : Ctx A) (H : Val → Name → M A Bool) (id : Nat) (w0 c0 : Val) (n : Name)
    (inside : Bool) : M A Val :=
  M.tryCatch (getattributePy X H id w0 c0 n inside) Exn.isAttr
    (fun _ => getattrHookPy X H id w0 c0 n)

/-- `hasattr(v, n)`; on a security proxy it goes through the proxy's attribute access, followed
`depth` levels deep (a proxy around a proxy around ...). -/
def hasattrD (X : Ctx A) : Nat → Val → Name → M A Bool
  | k + 1, .proxy id w c, n =>
    hasattrOf X (match X.impl with
      | .c => getattroC X (hasattrD X k) w c n
      | .py => getattrPy X (hasattrD X k) id w c n false)
  | _, v, n => hasattrOf X (probe X (.getattr v n))

/-- `hasattr` as used by checks. -/
def hasattrX (X : Ctx A) : Val → Name → M A Bool := hasattrD X X.depth

/-- A check made by a proxy (_proxy.c:128-153; proxy.py:33, 46 and elsewhere). -/
def guard (X : Ctx A) (k : CheckKind) (c w : Val) (n : Name) : M A Unit :=
  chkCheck X (hasattrX X) k c w n

/-! ## The C implementation -/

/-- `check1` (_proxy.c:177-187) and the identically shaped slots (`proxy_iter`, `proxy_call`,
`proxy_getitem`, ...): check, operate, proxy the result. -/
def check1C (X : Ctx A) (k : CheckKind) (w c : Val) (n : Name) (r : RawOp) : M A Val := do
  guard X k c w n
  let v ← perform X r
  chkProxy X c v

/-- `default_repr` (_proxy.c:383-420). -/
def defaultReprC (X : Ctx A) (w : Val) : M A Val := do
  let klass ← probe X (.getattr w "__class__")
  let name ← probe X (.getattr klass "__name__")
  let sname ← asName name
  let smod ← M.tryCatch (do
      let m ← probe X (.getattr klass "__module__")
      pure (some m)) (fun _ => true) (fun _ => pure none)
  match smod with
  | some m => do
    let ms ← asName m
    pure (.str 0 ("<security proxied " ++ ms ++ "." ++ sname ++ " instance at " ++ X.W.addr w ++ ">"))
  | none =>
    pure (.str 0 ("<security proxied " ++ sname ++ " instance at " ++ X.W.addr w ++ ">"))

/-- `proxy_str`, `proxy_repr` (_proxy.c:422-452). -/
def strC (X : Ctx A) (w c : Val) (n : Name) : M A Val := fun s =>
  match guard X .check c w n s with
  | (.ok (), s1) => (do
      let v ← perform X (.special n w [])
      asStr X.W v : M A Val) s1
  | (.err _, s1) => defaultReprC X w s1
  | (.diverge, s1) => (.diverge, s1)

/-- `check2` (_proxy.c:189-221) as the `nb_*` slot called with operands `l`, `r`. -/
def check2C (X : Ctx A) (b : BinName) (l r : Val) : M A Val :=
  match l, r with
  | .proxy _ w c, r => check1C X .check w c b.op (.binop b.op w r)
  | l, .proxy _ w c => check1C X .check w c b.rop (.binop b.op l w)
  | _, _ => pure .notImpl

/-- `proxy_pow` (_proxy.c:506-544); a missing modulus is `None`. -/
def powC (X : Ctx A) (x y m : Val) : M A Val :=
  match x, y, m with
  | .proxy _ w c, y, m => check1C X .check w c "__pow__" (.pow w y m)
  | x, .proxy _ w c, m => check1C X .check w c "__rpow__" (.pow x w m)
  | x, y, .proxy _ w c => check1C X .check w c "__3pow__" (.pow x y w)
  | _, _, _ => pure .notImpl

/-- `check2i` (_proxy.c:223-244). -/
def inplaceC (X : Ctx A) (id : Nat) (w c : Val) (b : InName) (other : Val) : M A Val := do
  guard X .check c w b.op
  let v ← perform X (.inplace b.op w other)
  if v = w then pure (.proxy id w c) else chkProxy X c v

/-- `proxy_richcompare` (_proxy.c:324-334). -/
def compareC (X : Ctx A) (w c : Val) (b : CmpName) (other : Val) : M A Val := do
  let v ← perform X (.compare b.op w other)
  match v with
  | .bool t => pure (.bool t)
  | v => chkProxy X c v

/-- `proxy_length_hint` (_proxy.c:594-607). -/
def lengthHintC (X : Ctx A) (w : Val) : M A Val :=
  M.tryCatch (perform X (.method w "__length_hint__" [])) Exn.isAttr (fun _ => pure .notImpl)

/-! ## The pure-Python implementation -/

/-- `_check_name` (proxy.py:27-38).  The wrapped object is read again by the `PyProxyBase`
method after the check. -/
def checkNamePy (X : Ctx A) (id : Nat) (w0 c0 : Val) (n : Name) (r : Val → RawOp) : M A Val := do
  let s ← M.get
  let w := proxyWrapped X s id w0
  let c := proxyChecker X s id c0
  guard X .check c w n
  let s1 ← M.get
  let v ← perform X (r (proxyWrapped X s1 id w0))
  chkProxy X c v

/-- `_check_name` around a `PyProxyBase` method that returns `None` (proxy.py:258-314: `__setitem__`,
`__delitem__`); the `None` is proxied like any other result. -/
def checkNameNonePy (X : Ctx A) (id : Nat) (w0 c0 : Val) (n : Name) (r : Val → RawOp) : M A Val := do
  let s ← M.get
  let c := proxyChecker X s id c0
  guard X .check c (proxyWrapped X s id w0) n
  let s1 ← M.get
  let _ ← perform X (r (proxyWrapped X s1 id w0))
  let _ ← chkProxy X c .none
  pure .none

/-- `getattr(v, n, None)` on an unproxied value, carried out for the user. -/
def getattrOrNone (X : Ctx A) (v : Val) (n : Name) : M A Val := orNone (perform X (.getattr v n))

/-- `_check_name_inplace` (proxy.py:41-55). -/
def inplacePy (X : Ctx A) (id : Nat) (w0 c0 : Val) (b : InName) (other : Val) : M A Val := do
  let s ← M.get
  let w := proxyWrapped X s id w0
  let c := proxyChecker X s id c0
  guard X .check c w b.op
  let m ← getattrOrNone X w b.op
  if m ≠ .none then do
    let v ← perform X (.call m [other])
    M.modify fun s => { s with ovW := fun k => if k = id then some v else s.ovW k }
    pure (.proxy id w0 c0)
  else do
    let m2 ← perform X (.getattr w b.plain)
    let v ← perform X (.call m2 [other])
    newProxy v c

/-- `ProxyPy.__setattr__` (proxy.py:161-167). -/
def setattrPy (X : Ctx A) (id : Nat) (w0 c0 : Val) (n : Name) (x : Val) : M A Val :=
  if n = "_wrapped" then do
    M.modify fun s => { s with ovW := fun k => if k = id then some x else s.ovW k }
    pure .none
  else if n = "_checker" then do
    M.modify fun s => { s with ovC := fun k => if k = id then some x else s.ovC k }
    pure .none
  else do
    let s ← M.get
    let w := proxyWrapped X s id w0
    let c := proxyChecker X s id c0
    guard X .setattr c w n
    let _ ← perform X (.setattr w n x)
    pure .none

/-- `ProxyPy.__delattr__` (proxy.py:169-175). -/
def delattrPy (X : Ctx A) (id : Nat) (w0 c0 : Val) (n : Name) : M A Val :=
  if n = "_wrapped" ∨ n = "_checker" then M.throw (.attributeError "")
  else do
    let s ← M.get
    let w := proxyWrapped X s id w0
    let c := proxyChecker X s id c0
    guard X .setattr c w n
    let _ ← perform X (.delattr w n)
    pure .none

/-- `ProxyPy.__length_hint__` (proxy.py:217-225). -/
def lengthHintPy (X : Ctx A) (w : Val) : M A Val := do
  let h ← M.tryCatch (do
      let v ← perform X (.getattr w "__length_hint__")
      pure (some v)) Exn.isAttr (fun _ => pure none)
  match h with
  | none => pure .notImpl
  | some h => perform X (.call h [])

/-- The fallback text of `ProxyPy.__str__` and `__repr__` (proxy.py:237-240, 251-254). -/
def defaultReprPy (X : Ctx A) (w : Val) : M A Val := do
  let k1 ← probe X (.getattr w "__class__")
  let m ← probe X (.getattr k1 "__module__")
  let k2 ← probe X (.getattr w "__class__")
  let nm ← probe X (.getattr k2 "__name__")
  let ms ← asName m
  let ns ← asName nm
  pure (.str 0 ("<security proxied " ++ ms ++ "." ++ ns ++ " instance at " ++ X.W.addr w ++ ">"))

/-- `ProxyPy.__str__`, `__repr__` (proxy.py:227-254) as called by `str()`/`repr()`, which insist
on a string. -/
def strPy (X : Ctx A) (id : Nat) (w0 c0 : Val) (n : Name) : M A Val := do
  let v ← M.tryCatch (checkNamePy X id w0 c0 n (fun w => .special n w []))
    (fun e => decide (e ≠ .typeError))
    (fun _ => do
      let s ← M.get
      defaultReprPy X (proxyWrapped X s id w0))
  asStr X.W v

/-- The `__op__`/`__rop__` methods as the runtime calls them for operands `l`, `r`. -/
def binPy (X : Ctx A) (b : BinName) (l r : Val) : M A Val :=
  match l, r with
  | .proxy id w c, r => checkNamePy X id w c b.op (fun w => .binop b.op w r)
  | l, .proxy id w c => checkNamePy X id w c b.rop (fun w => .binop b.op l w)
  | _, _ => pure .notImpl

/-- `__pow__`, `__rpow__` as the runtime calls them; a proxy as third argument is not
supported (tests/test_proxy.py: `test___pow___w_z_proxied_allowed`). -/
def powPy (X : Ctx A) (x y m : Val) : M A Val :=
  match x, y with
  | .proxy id w c, y => checkNamePy X id w c "__pow__" (fun w => .pow w y m)
  | x, .proxy id w c => checkNamePy X id w c "__rpow__" (fun w => .pow x w m)
  | _, _ => pure .notImpl

/-! ## All operations on one proxy -/

/-- What code holding a proxy can do with it. -/
inductive POp where
  | getattr (n : Name) (inside : Bool)
  | setattr (n : Name) (v : Val)
  | delattr (n : Name)
  | unop (u : UnName)
  | call (args : List Val)
  | getitem (k : Val)
  | setitem (k v : Val)
  | delitem (k : Val)
  | contains (v : Val)
  | len
  | iter
  | next
  | binL (b : BinName) (other : Val)
  | binR (b : BinName) (other : Val)
  | pow (y m : Val)
  | rpow (x m : Val)
  | pow3 (x y : Val)
  | inplace (b : InName) (other : Val)
  | compare (b : CmpName) (other : Val)
  | hash
  | bool
  | lengthHint
  | str
  | repr
  deriving DecidableEq, Repr

/-- Operations on a compiled proxy. -/
def popC (X : Ctx A) (id : Nat) (w c : Val) : POp → M A Val
  | .getattr n _ => getattroC X (hasattrX X) w c n
  | .setattr n v => do            -- proxy_setattro (_proxy.c:375-381)
    guard X .setattr c w n
    let _ ← perform X (.setattr w n v)
    pure .none
  | .delattr n => do
    guard X .setattr c w n
    let _ ← perform X (.delattr w n)
    pure .none
  | .unop u =>
    match u with
    | .complex | .index => M.throw .typeError   -- no slot in _proxy.c
    | u => check1C X .check w c u.op (.special u.op w [])
  | .call args => check1C X .check w c "__call__" (.special "__call__" w args)
  | .getitem k => check1C X .check w c "__getitem__" (.special "__getitem__" w [k])
  | .setitem k v => do            -- proxy_setitem (_proxy.c:666-678)
    guard X .check c w "__setitem__"
    let _ ← perform X (.special "__setitem__" w [k, v])
    pure .none
  | .delitem k => do
    guard X .check c w "__delitem__"
    let _ ← perform X (.special "__delitem__" w [k])
    pure .none
  | .contains v => do             -- proxy_contains (_proxy.c:641-647)
    guard X .check c w "__contains__"
    let r ← perform X (.special "__contains__" w [v])
    pure (.bool (truthy X.W r))
  | .len => do                    -- proxy_length (_proxy.c:586-592)
    guard X .check c w "__len__"
    let r ← perform X (.special "__len__" w [])
    asLen r
  | .iter => check1C X .check w c "__iter__" (.special "__iter__" w [])
  | .next => check1C X .getattr w c "__next__" (.special "__next__" w [])
  | .binL b o => check2C X b (.proxy id w c) o
  | .binR b o => check2C X b o (.proxy id w c)
  | .pow y m => powC X (.proxy id w c) y m
  | .rpow x m => powC X x (.proxy id w c) m
  | .pow3 x y => powC X x y (.proxy id w c)
  | .inplace b o => inplaceC X id w c b o
  | .compare b o => compareC X w c b o
  | .hash => do                   -- proxy_hash (_proxy.c:454-458)
    let r ← perform X (.special "__hash__" w [])
    asInt r
  | .bool => do                   -- proxy_bool (_proxy.c:554-558)
    let r ← perform X (.special "__bool__" w [])
    pure (.bool (truthy X.W r))
  | .lengthHint => lengthHintC X w
  | .str => strC X w c "__str__"
  | .repr => strC X w c "__repr__"

/-- Operations on a pure-Python proxy. -/
def popPy (X : Ctx A) (id : Nat) (w c : Val) : POp → M A Val
  | .getattr n inside => getattrPy X (hasattrX X) id w c n inside
  | .setattr n v => setattrPy X id w c n v
  | .delattr n => delattrPy X id w c n
  | .unop u => checkNamePy X id w c u.op (fun w => .special u.op w [])
  | .call args => checkNamePy X id w c "__call__" (fun w => .special "__call__" w args)
  | .getitem k => checkNamePy X id w c "__getitem__" (fun w => .special "__getitem__" w [k])
  | .setitem k v => checkNameNonePy X id w c "__setitem__" (fun w => .special "__setitem__" w [k, v])
  | .delitem k => checkNameNonePy X id w c "__delitem__" (fun w => .special "__delitem__" w [k])
  | .contains v => do
    let s ← M.get
    let cc := proxyChecker X s id c
    guard X .check cc (proxyWrapped X s id w) "__contains__"
    let s1 ← M.get
    let r ← perform X (.special "__contains__" (proxyWrapped X s1 id w) [v])
    let _ ← chkProxy X cc (.bool (truthy X.W r))
    pure (.bool (truthy X.W r))
  | .len => do                    -- wrap_result=False (proxy.py:316-320)
    let s ← M.get
    guard X .check (proxyChecker X s id c) (proxyWrapped X s id w) "__len__"
    let s1 ← M.get
    let r ← perform X (.special "__len__" (proxyWrapped X s1 id w) [])
    asLen r
  | .iter => checkNamePy X id w c "__iter__" (fun w => .special "__iter__" w [])
  | .next => checkNamePy X id w c "__next__" (fun w => .special "__next__" w [])
  | .binL b o => binPy X b (.proxy id w c) o
  | .binR b o => binPy X b o (.proxy id w c)
  | .pow y m => powPy X (.proxy id w c) y m
  | .rpow x m => powPy X x (.proxy id w c) m
  | .pow3 x y => powPy X x y (.proxy id w c)
  | .inplace b o => inplacePy X id w c b o
  | .compare b o => do            -- proxy.py:177-205
    let s ← M.get
    perform X (.compare b.op (proxyWrapped X s id w) o)
  | .hash => do                   -- proxy.py:207-210
    let s ← M.get
    let r ← perform X (.special "__hash__" (proxyWrapped X s id w) [])
    asInt r
  | .bool => do                   -- proxy.py:212-215
    let s ← M.get
    let r ← perform X (.special "__bool__" (proxyWrapped X s id w) [])
    pure (.bool (truthy X.W r))
  | .lengthHint => do
    let s ← M.get
    lengthHintPy X (proxyWrapped X s id w)
  | .str => strPy X id w c "__str__"
  | .repr => strPy X id w c "__repr__"

/-- An operation on any held value: proxies run the package's code, anything else is not the
package's business. -/
def pop (X : Ctx A) (v : Val) (op : POp) : M A Val :=
  match v with
  | .proxy id w c =>
    match X.impl with
    | .c => popC X id w c op
    | .py => popPy X id w c op
  | _ => M.throw .typeError

end ZS
