import Verif.Model.CMem

/-!
# The functions of the two extension modules on the machine of `CMem`

Statement by statement: which references the functions take and release, what they dereference, whether
they leave an error set, and which functions they call with which arguments.  What they compute is
described more abstractly by the other models (`Model/Checker.lean`, `Model/Select.lean`,
`Model/Proxy.lean`); C63 says that the two agree.  `args` tuples and
keyword dictionaries are represented by the objects in them, which the caller keeps alive.
`tp_traverse` functions, which count nothing, and the module initialisation are left out.
-/

namespace ZS.CM

/-- Dereferencing a pointer that is expected not to be NULL. -/
def deref : Ptr → C Nat
  | .none => fail .null
  | some o => pure o

/-! ## _zope_security_checker.c -/

/-- `if (dict) result = PyDict_GetItem(dict, name)` (_zope_security_checker.c:67-71, 87-91, 146-147,
229-230). -/
def lookup (E : Env) (dict : Ptr) (name : Nat) : C Ptr :=
  match dict with
  | some d => dictGet E d name
  | .none => pure .none

/-- `Checker_permission_id` (_zope_security_checker.c:61-78). -/
def permissionId (E : Env) (self name : Nat) : C Ptr := do
  let perms ← loadGetperms self
  let result ← lookup E perms name
  match result with
  | some result => do
    incref E result
    pure (some result)
  | .none => do
    incref E E.none
    pure (some E.none)

/-- `Checker_setattr_permission_id` (_zope_security_checker.c:81-98). -/
def setattrPermissionId (E : Env) (self name : Nat) : C Ptr := do
  let perms ← loadSetperms self
  let result ← lookup E perms name
  match result with
  | some result => do
    incref E result
    pure (some result)
  | .none => do
    incref E E.none
    pure (some E.none)

/-- The end of `checkPermission`: raising `Unauthorized` (_zope_security_checker.c:125-130). -/
def raiseUnauthorized (E : Env) (permission object name : Nat) : C Int := do
  let r ← callObj E .api .tuple [object, name, permission]
  match r with
  | .none => pure (-1)
  | some r => do
    setObject E (E.const "Unauthorized") r
    decref E r
    pure (-1)

/-- `checkPermission` (_zope_security_checker.c:100-131). -/
def checkPermission (E : Env) (permission object name : Nat) : C Int := do
  let interaction ← callObj E .api .getAttr [E.threadLocal, E.const "interaction"]
  match interaction with
  | .none => pure (-1)
  | some interaction => do
    let r ← callObj E .api .callMethod [interaction, E.const "checkPermission", permission, object]
    decref E interaction
    match r with
    | .none => pure (-1)
    | some r => do
      let i ← callInt E .int .isTrue [r]
      decref E r
      if i < 0 then pure (-1)
      else if i ≠ 0 then pure 0
      else raiseUnauthorized E permission object name

/-- Raising `ForbiddenAttribute` (_zope_security_checker.c:189-196, 247-253). -/
def raiseForbidden (E : Env) (object name : Nat) : C Unit := do
  let args ← callObj E .api .tuple [name, object]
  match args with
  | .none => pure ()
  | some args => do
    setObject E (E.const "ForbiddenAttribute") args
    decref E args

/-- `IS_STRING(name) && MAKE_STRING(name)[0] == '_' && MAKE_STRING(name)[1] == '_'`
(_zope_security_checker.c:163-165). -/
def isOperator (E : Env) (name : Nat) : C Bool := do
  use E name
  if E.isStr name then do
    let s ← makeString E name
    let t ← readText E s
    if t[0]? = some '_' then do
      let s ← makeString E name
      let t ← readText E s
      pure (decide (t[1]? = some '_'))
    else pure false
  else pure false

/-- The part of `Checker_check_int` for undeclared names (_zope_security_checker.c:163-197). -/
def checkUndeclared (E : Env) (object name : Nat) : C Int := do
  let operator ← isOperator E name
  if operator then do
    let ic ← callInt E .int .contains [E.available, name]
    if ic < 0 then pure (-1)
    else if ic ≠ 0 then pure 0
    else do
      let s ← makeString E name
      let t ← readText E s
      if t = "__iter__".toList then do
        let h ← callTest E .hasAttr [object, name]
        if h then do
          raiseForbidden E object name
          pure (-1)
        else pure 0
      else do
        raiseForbidden E object name
        pure (-1)
  else do
    raiseForbidden E object name
    pure (-1)

/-- `Checker_check_int` for a name that is not NULL (_zope_security_checker.c:142-198). -/
def checkNamed (E : Env) (self object name : Nat) : C Int := do
  let perms ← loadGetperms self
  let permission ← lookup E perms name
  match permission with
  | some permission =>
    if permission = E.checkerPublic then pure 0
    else do
      let i ← checkPermission E permission object name
      if i < 0 then pure (-1) else pure 0
  | .none => checkUndeclared E object name

/-- `Checker_check_int` (_zope_security_checker.c:139-198).  As the slot `mp_ass_subscript` it is
called with `name` NULL for `del checker[object]`; the first thing done with `name`, in
`PyDict_GetItem` or in `PyUnicode_Check`, is to read its type. -/
def checkInt (E : Env) (self object : Nat) (name : Ptr) : C Int := do
  let name ← deref name
  checkNamed E self object name

/-- `PyArg_ParseTuple` and `PyArg_ParseTupleAndKeywords`: may fail with an exception. -/
def parse (E : Env) (args : List Nat) : C Bool := do
  useAll E args
  let r ← consult E .int .parse args
  if r.null then do
    setErr true (.callee r.obj)
    pure false
  else pure true

/-- Returning `None` (_zope_security_checker.c:214-215, 241-242, 516-517). -/
def returnNone (E : Env) : C Ptr := do
  incref E E.none
  pure (some E.none)

/-- `Checker_check` (_zope_security_checker.c:203-216). -/
def checkerCheck (E : Env) (self object name : Nat) : C Ptr := do
  let ok ← parse E [object, name]
  if ok then do
    let i ← checkInt E self object (some name)
    if i < 0 then pure .none
    else returnNone E
  else pure .none

/-- `Checker_check_setattr` (_zope_security_checker.c:220-254). -/
def checkerCheckSetattr (E : Env) (self object name : Nat) : C Ptr := do
  let ok ← parse E [object, name]
  if ok then do
    let perms ← loadSetperms self
    let permission ← lookup E perms name
    match permission with
    | some permission =>
      if permission = E.checkerPublic then returnNone E
      else do
        let i ← checkPermission E permission object name
        if i < 0 then pure .none
        else returnNone E
    | .none => do
      raiseForbidden E object name
      pure .none
  else pure .none

/-- The loop of `selectChecker` (_zope_security_checker.c:536-554); `n` bounds the iterations of the
model. -/
def selectLoop (E : Env) (object : Nat) : Nat → Nat → C Ptr
  | 0, _ => fun _ => .diverge
  | n + 1, checker => do
    use E checker
    if E.isChecker checker then pure (some checker)
    else do
      let newchecker ← callObj E .api .call [checker, object]
      decref E checker
      match newchecker with
      | .none => pure .none
      | some checker =>
        if checker = E.noProxy ∨ checker = E.none then do
          decref E checker
          returnNone E
        else selectLoop E object n checker

/-- `checker == _defaultChecker && PyObject_IsInstance(object, PyExc_Exception)`
(_zope_security_checker.c:523-524): any answer but 0, also the one that means failure, counts as
true. -/
def isUnprotectedException (E : Env) (checker object : Nat) : C Bool :=
  if checker = E.defaultChecker then do
    let i ← callInt E .isInstance .isInstance [object, E.const "Exception"]
    pure (decide (i ≠ 0))
  else pure false

/-- `selectChecker` (_zope_security_checker.c:500-555). -/
def selectChecker (E : Env) (fuel : Nat) (object : Nat) : C Ptr := do
  use E object
  let c ← dictGet E E.checkers (E.typeOf object)
  let checker := c.getD E.defaultChecker
  if checker = E.noProxy then returnNone E
  else do
    let exc ← isUnprotectedException E checker object
    if exc then returnNone E
    else do
      incref E checker
      selectLoop E object fuel checker

/-- The last lines of `Checker_proxy` (_zope_security_checker.c:310-312). -/
def makeProxy (E : Env) (value checker : Nat) : C Ptr := do
  let r ← callObj E .api .call [E.proxyType, value, checker]
  decref E checker
  pure r

/-- `Checker_proxy` (_zope_security_checker.c:261-313). -/
def checkerProxy (E : Env) (fuel : Nat) (value : Nat) : C Ptr := do
  use E value
  if E.exactProxy value then do
    incref E value
    pure (some value)
  else do
    let checker ← callObj E .securityChecker .getAttr [value, E.const "__Security_checker__"]
    match checker with
    | .none => do
      clearErr
      let checker ← selectChecker E fuel value
      match checker with
      | .none => pure .none
      | some checker =>
        if checker = E.none then do
          decref E checker
          incref E value
          pure (some value)
        else makeProxy E value checker
    | some checker =>
      if checker = E.none then do
        let errv ← callObj E .api .tuple [value]
        match errv with
        | .none => pure .none
        | some errv => do
          setObject E (E.const "ValueError") errv
          decref E errv
          pure .none
      else makeProxy E value checker

/-- `Checker_clear` (_zope_security_checker.c:337-343): `CLEAR(O)` takes the reference out of the
field before it is released. -/
def checkerClear (E : Env) (self : Nat) : C Int := do
  let t ← takeGetperms self
  xdecref E t
  let t ← takeSetperms self
  xdecref E t
  pure 0

/-- `Py_XINCREF`. -/
def xincref (E : Env) : Ptr → C Unit
  | .none => pure ()
  | some o => incref E o

/-- `Checker_init` (_zope_security_checker.c:364-381). -/
def checkerInit (E : Env) (self getperms : Nat) (setperms : Ptr) : C Int := do
  let ok ← parse E (getperms :: setperms.toList)
  if ok then do
    incref E getperms
    storeGetperms self (some getperms)
    xincref E setperms
    storeSetperms self setperms
    pure 0
  else pure (-1)

/-- Returning the value of a field (_zope_security_checker.c:393-394, 407-408). -/
def returnField (E : Env) (d : Ptr) : C Ptr := do
  let d ← deref d
  incref E d
  pure (some d)

/-- `Checker_get_get_permissions` (_zope_security_checker.c:383-395). -/
def getGetPermissions (E : Env) (self : Nat) : C Ptr := do
  let d ← loadGetperms self
  match d with
  | .none => do
    let d ← callObj E .api .dictNew []
    match d with
    | .none => pure .none
    | some d => do
      storeGetperms self (some d)
      let d ← loadGetperms self
      returnField E d
  | some d => returnField E (some d)

/-- `Checker_get_set_permissions` (_zope_security_checker.c:397-409). -/
def getSetPermissions (E : Env) (self : Nat) : C Ptr := do
  let d ← loadSetperms self
  match d with
  | .none => do
    let d ← callObj E .api .dictNew []
    match d with
    | .none => pure .none
    | some d => do
      storeSetperms self (some d)
      let d ← loadSetperms self
      returnField E d
  | some d => returnField E (some d)

/-! ## _proxy.c -/

/-- `check` (_proxy.c:128-152); `meth` is the name of the method. -/
def check (E : Env) (self : Nat) (meth : String) (name : Nat) : C Int :=
  let checker := E.checkerOf self
  let method : C Int := do
    let r ← callObj E .api .callMethod [checker, E.const meth, E.wrapped self, name]
    match r with
    | .none => pure (-1)
    | some r => do
      decref E r
      pure 0
  if meth = "check_setattr" then method
  else match E.assSlot checker with
    | .absent => method
    | .native => checkInt E checker (E.wrapped self) (some name)
    | .foreign => callInt E .int .assSubscript [checker, E.wrapped self, name]

/-- The call of the checker in `PROXY_RESULT` (_proxy.c:163-169). -/
def protect (E : Env) (fuel : Nat) (self result : Nat) : C Ptr :=
  match E.subSlot (E.checkerOf self) with
  | .native => checkerProxy E fuel result
  | .foreign => callObj E .api .subscript [E.checkerOf self, result]
  | .absent => callObj E .api .callMethod [E.checkerOf self, E.const "proxy", result]

/-- `PROXY_RESULT` (_proxy.c:160-173). -/
def proxyResult (E : Env) (fuel : Nat) (self : Nat) : Ptr → C Ptr
  | .none => pure .none
  | some result => do
    let tmp ← protect E fuel self result
    decref E result
    pure tmp

/-- `check1` (_proxy.c:177-187), also the shape of `proxy_iter` (_proxy.c:336-347), `proxy_call` (_proxy.c:460-471) and `proxy_getitem` (_proxy.c:653-664).  The operation is
applied to the wrapped object and further arguments. -/
def check1 (E : Env) (fuel : Nat) (self opname : Nat) (operation : Nat → C Ptr) : C Ptr := do
  let i ← check E self "check" opname
  if 0 ≤ i then do
    let result ← operation (E.wrapped self)
    proxyResult E fuel self result
  else pure .none

/-- `check2` (_proxy.c:189-221). -/
def check2 (E : Env) (fuel : Nat) (self other opname ropname : Nat) (operation : Nat → Nat → C Ptr) : C Ptr := do
  useAll E [self, other]
  if E.isProxy self then do
    let i ← check E self "check" opname
    if 0 ≤ i then do
      let result ← operation (E.wrapped self) other
      proxyResult E fuel self result
    else pure .none
  else if E.isProxy other then do
    let i ← check E other "check" ropname
    if 0 ≤ i then do
      let result ← operation self (E.wrapped other)
      proxyResult E fuel other result
    else pure .none
  else do
    incref E E.notImplemented
    pure (some E.notImplemented)

/-- `check2i` (_proxy.c:223-244). -/
def check2i (E : Env) (fuel : Nat) (self other opname : Nat) (operation : Nat → Nat → C Ptr) : C Ptr := do
  let i ← check E self "check" opname
  if 0 ≤ i then do
    let result ← operation (E.wrapped self) other
    if result = some (E.wrapped self) then do
      decref E (E.wrapped self)
      incref E self
      pure (some self)
    else proxyResult E fuel self result
  else pure .none

/-- A function of the C API applied to objects for the user of a proxy, such as `PyNumber_Add`. -/
def api (E : Env) (u : UserFn) (args : List Nat) : C Ptr := callObj E .api (.user u) args

/-- The messages of `call_int` and `call_float` (_proxy.c:483, 490-491). -/
def numberText (op : String) : String :=
  if op = "__int__" then "object can't be converted to int" else "object can't be converted to float"

/-- `NUMBER_METHOD` (_proxy.c:477-491): `call_int` and `call_float`. -/
def callNumber (E : Env) (op : String) (self : Nat) : C Ptr := do
  use E self
  if E.hasNumber self then api E (.special op) [self]
  else do
    setString E "TypeError" (numberText op)
    pure .none

/-- `call_ipow` (_proxy.c:493-498). -/
def callIpow (E : Env) (self other : Nat) : C Ptr := api E (.inplace "__ipow__") [self, other, E.none]

/-- `proxy_new` (_proxy.c:263-290).  The references taken are given to the fields of the new proxy. -/
def proxyNew (E : Env) (type object checker : Nat) : C Ptr := do
  let ok ← parse E [object, checker]
  if ok then
    if checker = E.none then do
      setString E "ValueError" "None passed as proxy checker"
      pure .none
    else do
      let self ← callObj E .api .alloc [type]
      match self with
      | .none => pure .none
      | some self => do
        incref E object
        incref E checker
        give object
        give checker
        pure (some self)
  else pure .none

/-- `proxy_clear` (_proxy.c:300-306): the reference in the field `proxy_checker` is taken out and
released, the other one is the business of the base type. -/
def proxyClear (E : Env) (self : Nat) (checker : Ptr) : C Int := do
  match checker with
  | .none => pure ()
  | some c => do
    gain c
    decref E c
  let _ ← callTest E .baseClear [self]
  pure 0

/-- `proxy_richcompare` (_proxy.c:324-334). -/
def proxyRichcompare (E : Env) (fuel : Nat) (op : String) (self other : Nat) : C Ptr := do
  let result ← api E (.compare op) [E.wrapped self, other]
  if result = some E.true_ ∨ result = some E.false_ then pure result
  else proxyResult E fuel self result

/-- `proxy_iter` (_proxy.c:336-347). -/
def proxyIter (E : Env) (fuel : Nat) (self : Nat) : C Ptr :=
  check1 E fuel self (E.const "__iter__") fun w => api E (.special "__iter__") [w]

/-- `proxy_iternext` (_proxy.c:349-360). -/
def proxyIternext (E : Env) (fuel : Nat) (self : Nat) : C Ptr := do
  let i ← check E self "check_getattr" (E.const "__next__")
  if 0 ≤ i then do
    let result ← callNext E (E.wrapped self)
    proxyResult E fuel self result
  else pure .none

/-- `proxy_getattro` (_proxy.c:362-373). -/
def proxyGetattro (E : Env) (fuel : Nat) (self name : Nat) : C Ptr := do
  let i ← check E self "check_getattr" name
  if 0 ≤ i then do
    let result ← api E .getAttr [E.wrapped self, name]
    proxyResult E fuel self result
  else pure .none

/-- `proxy_setattro` (_proxy.c:375-381); `value` NULL deletes. -/
def proxySetattro (E : Env) (self name : Nat) (value : Ptr) : C Int := do
  let i ← check E self "check_setattr" name
  if 0 ≤ i then
    match value with
    | some v => callInt E .int (.user .setAttr) [E.wrapped self, name, v]
    | .none => callInt E .int (.user .delAttr) [E.wrapped self, name]
  else pure (-1)

/-- The text of `default_repr` once the name is known (_proxy.c:399-412). -/
def reprText (E : Env) (object klass : Nat) (sname : Ptr) : C (Ptr × Ptr) := do
  let module ← callObj E .api .getAttr [klass, E.const "__module__"]
  match module with
  | some module => do
    let smodule ← makeString E module
    let mt ← readText E smodule
    let nt ← readText E sname
    let result ← callObj E .api (.format (some mt) nt) [object]
    pure (some module, result)
  | .none => do
    clearErr
    let nt ← readText E sname
    let result ← callObj E .api (.format .none nt) [object]
    pure (.none, result)

/-- `default_repr` (_proxy.c:383-420).  The tests of `sname` and `smodule` for NULL cannot succeed:
`PyBytes_AS_STRING` adds an offset.  `%p` does not dereference, but `object` is there anyway. -/
def defaultRepr (E : Env) (object : Nat) : C Ptr := do
  let klass ← callObj E .api .getAttr [object, E.const "__class__"]
  match klass with
  | .none => pure .none
  | some klass => do
    let name ← callObj E .api .getAttr [klass, E.const "__name__"]
    match name with
    | .none => do
      decref E klass
      pure .none
    | some name => do
      let sname ← makeString E name
      let (module, result) ← reprText E object klass sname
      decref E klass
      decref E name
      xdecref E module
      pure result

/-- `proxy_str` (_proxy.c:422-437) and `proxy_repr` (_proxy.c:439-452). -/
def proxyText (E : Env) (self : Nat) (op : String) : C Ptr := do
  let i ← check E self "check" (E.const op)
  if 0 ≤ i then api E (.special op) [E.wrapped self]
  else do
    clearErr
    defaultRepr E (E.wrapped self)

/-- `proxy_hash` (_proxy.c:454-458). -/
def proxyHash (E : Env) (self : Nat) : C Int := callHash E (E.wrapped self)

/-- `proxy_bool` (_proxy.c:556-560). -/
def proxyBool (E : Env) (self : Nat) : C Int := callInt E .int (.user (.special "__bool__")) [E.wrapped self]

/-- `proxy_call` (_proxy.c:460-471). -/
def proxyCall (E : Env) (fuel : Nat) (self args : Nat) (kwds : Ptr) : C Ptr :=
  check1 E fuel self (E.const "__call__") fun w => api E (.special "__call__") ([w, args] ++ kwds.toList)

/-- One case of `proxy_pow` (_proxy.c:511-519, 521-530, 532-540). -/
def powWith (E : Env) (fuel : Nat) (p opname : Nat) (args : List Nat) : C Ptr := do
  let i ← check E p "check" opname
  if 0 ≤ i then do
    let result ← api E .power args
    proxyResult E fuel p result
  else pure .none

/-- `proxy_pow` (_proxy.c:506-546). -/
def proxyPow (E : Env) (fuel : Nat) (self other : Nat) (modulus : Ptr) : C Ptr := do
  useAll E ([self, other] ++ modulus.toList)
  if E.isProxy self then powWith E fuel self (E.const "__pow__") ([E.wrapped self, other] ++ modulus.toList)
  else if E.isProxy other then powWith E fuel other (E.const "__rpow__") ([self, E.wrapped other] ++ modulus.toList)
  else match modulus with
    | some md =>
      if E.isProxy md then powWith E fuel md (E.const "__3pow__") [self, other, E.wrapped md]
      else do
        incref E E.notImplemented
        pure (some E.notImplemented)
    | .none => do
      incref E E.notImplemented
      pure (some E.notImplemented)

/-- `proxy_length` (_proxy.c:586-592). -/
def proxyLength (E : Env) (self : Nat) : C Int := do
  let i ← check E self "check" (E.const "__len__")
  if 0 ≤ i then callInt E .int (.user (.special "__len__")) [E.wrapped self]
  else pure (-1)

/-- `proxy_length_hint` (_proxy.c:594-607); whether the exception is an `AttributeError` is the
answer of `PyErr_ExceptionMatches`. -/
def proxyLengthHint (E : Env) (self : Nat) : C Ptr := do
  let result ← api E (.method "__length_hint__") [E.wrapped self]
  match result with
  | some r => pure (some r)
  | .none => do
    let isAttributeError ← callTest E .exceptionMatches [E.const "AttributeError"]
    if isAttributeError then do
      clearErr
      incref E E.notImplemented
      pure (some E.notImplemented)
    else pure .none

/-- `proxy_getitem` (_proxy.c:653-664). -/
def proxyGetitem (E : Env) (fuel : Nat) (self key : Nat) : C Ptr :=
  check1 E fuel self (E.const "__getitem__") fun w => api E (.special "__getitem__") [w, key]

/-- `proxy_setitem` (_proxy.c:666-677). -/
def proxySetitem (E : Env) (self key : Nat) (value : Ptr) : C Int :=
  match value with
  | .none => do
    let i ← check E self "check" (E.const "__delitem__")
    if 0 ≤ i then callInt E .int (.user (.special "__delitem__")) [E.wrapped self, key]
    else pure (-1)
  | some v => do
    let i ← check E self "check" (E.const "__setitem__")
    if 0 ≤ i then callInt E .int (.user (.special "__setitem__")) [E.wrapped self, key, v]
    else pure (-1)

/-- `proxy_igetitem` (_proxy.c:613-624). -/
def proxyIgetitem (E : Env) (fuel : Nat) (self : Nat) (i : Int) : C Ptr := do
  let key ← callObj E .api (.fromLong i) []
  match key with
  | .none => pure .none
  | some key => do
    let res ← proxyGetitem E fuel self key
    decref E key
    pure res

/-- `proxy_isetitem` (_proxy.c:627-638). -/
def proxyIsetitem (E : Env) (self : Nat) (i : Int) (value : Ptr) : C Int := do
  let key ← callObj E .api (.fromLong i) []
  match key with
  | .none => pure (-1)
  | some key => do
    let res ← proxySetitem E self key value
    decref E key
    pure res

/-- `proxy_contains` (_proxy.c:641-647). -/
def proxyContains (E : Env) (self value : Nat) : C Int := do
  let i ← check E self "check" (E.const "__contains__")
  if 0 ≤ i then callInt E .int (.user (.special "__contains__")) [E.wrapped self, value]
  else pure (-1)

/-- `module_getChecker` (_proxy.c:811-824). -/
def getChecker (E : Env) (arg : Nat) : C Ptr := do
  use E arg
  if E.isProxy arg then do
    incref E (E.checkerOf arg)
    pure (some (E.checkerOf arg))
  else do
    setString E "TypeError" "getChecker argument must be a _Proxy"
    pure .none

/-- `module_getObject` (_proxy.c:826-838). -/
def getObject (E : Env) (arg : Nat) : C Ptr := do
  use E arg
  if E.isProxy arg then do
    incref E (E.wrapped arg)
    pure (some (E.wrapped arg))
  else do
    incref E arg
    pure (some arg)

end ZS.CM
