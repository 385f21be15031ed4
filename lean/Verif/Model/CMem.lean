/-!
# The C API as seen by the extension modules: references, NULL and the error indicator

A machine for the C code of `_proxy.c` and `_zope_security_checker.c` that records what the Python C
API asks of its users.  Objects are numbers, pointers may be NULL.  The machine keeps, for every
object, how many references the running code is responsible for (`own`), which objects are only
borrowed from a dictionary and may disappear when other code runs (`loose`), and the error
indicator.  Everything outside the two modules answers as the environment says, for any
environment.  Reading through NULL, using an object that need not exist any more, and giving up a
reference that is not owned are faults.

Every call of other code, with its answer, is kept in a log, which exists only in the model; a second
log has the name of the function called and the arguments, and the exception that is set has a place of its
own, for comparison with the models of what the functions compute (`Spec/CRefine.lean`).
-/

namespace ZS.CM

/-- A pointer: NULL or an object. -/
abbrev Ptr := Option Nat

/-- What goes wrong in C. -/
inductive Fault where
  /-- A NULL or otherwise invalid pointer is dereferenced. -/
  | null
  /-- An object is used that may have been destroyed. -/
  | dangling (o : Nat)
  /-- A reference is released that the code does not own. -/
  | release (o : Nat)
  deriving DecidableEq, Repr

/-- The functions of the C API (and of other objects) that are called. -/
inductive Call where
  /-- `PyObject_GetAttr` and other functions returning a new reference. -/
  | api
  /-- `PyObject_GetAttr(value, "__Security_checker__")`. -/
  | securityChecker
  /-- `PyUnicode_AsUTF8String`. -/
  | asUtf8
  /-- `PyObject_IsInstance`. -/
  | isInstance
  /-- `PyIter_Next`. -/
  | iterNext
  /-- Functions returning an int. -/
  | int
  /-- `PyDict_GetItem`, a borrowed reference. -/
  | dictGet
  /-- `Py_DECREF`, which may run a destructor. -/
  | decref
  deriving DecidableEq, Repr

/-- Operations carried out for the user of a proxy, named after the special method that implements them:
`PyObject_GetAttr`, `PyObject_SetAttr` with a value and with NULL, `PyObject_GetItem`, `PyObject_Length`,
`PyNumber_Negative` and so on, the binary operators, the in-place operators, `PyNumber_Power`,
`PyObject_RichCompare`, and `PyObject_CallMethod`. -/
inductive UserFn where
  | getAttr
  | setAttr
  | delAttr
  | special (n : String)
  | binary (n : String)
  | inplace (n : String)
  | power
  | compare (n : String)
  | method (n : String)
  deriving DecidableEq, Repr

/-- Which function is called. -/
inductive Fn where
  /-- `PyObject_GetAttr`. -/
  | getAttr
  /-- `PyObject_CallFunctionObjArgs`. -/
  | call
  /-- `PyObject_CallMethodObjArgs`. -/
  | callMethod
  /-- `Py_BuildValue` with a format for a tuple. -/
  | tuple
  /-- `PyObject_IsTrue`, `PyDict_Contains`, `PyObject_HasAttr`, `PyObject_IsInstance`. -/
  | isTrue
  | contains
  | hasAttr
  | isInstance
  /-- `PyDict_GetItem`, `PyDict_New`. -/
  | dictGet
  | dictNew
  /-- `PyUnicode_AsUTF8String`. -/
  | utf8
  /-- `PyArg_ParseTuple`, `PyArg_ParseTupleAndKeywords`. -/
  | parse
  /-- The destructor run by `Py_DECREF`. -/
  | destroy
  /-- The slots `mp_ass_subscript` and `mp_subscript` of a checker's type. -/
  | assSubscript
  | subscript
  /-- `PyErr_ExceptionMatches`. -/
  | exceptionMatches
  /-- `tp_alloc`, and `tp_clear` of the base type. -/
  | alloc
  | baseClear
  /-- `PyLong_FromLong`. -/
  | fromLong (i : Int)
  /-- `PyUnicode_FromFormat` in `default_repr`, with and without a module. -/
  | format (module : Option (List Char)) (name : List Char)
  /-- An operation for the user of a proxy. -/
  | user (u : UserFn)
  deriving DecidableEq, Repr

/-- Where the exception that is set comes from: a call that failed, or `PyErr_SetObject` (or
`PyErr_SetString`) with type and value. -/
inductive Raised where
  | nothing
  | callee (e : Nat)
  | set (exc arg : Nat)
  deriving DecidableEq, Repr

/-- The answer to a call: the object returned unless `null`, or the number returned, and which
objects lost the reference that dictionaries had to them meanwhile.  If the call fails `obj` is the
exception it has set. -/
structure Reply where
  null : Bool := false
  obj : Nat := 0
  num : Int := 0
  drops : List Nat := []
  deriving DecidableEq, Repr

/-- A call: the function, its arguments, the exception that was set at the time, and the answer. -/
structure Ask where
  fn : Fn
  args : List Nat
  raised : Raised
  reply : Reply
  deriving DecidableEq, Repr

/-- How the type of a checker fills a slot of `tp_as_mapping`: not at all, with the function of
`CheckerType`, or with some other function. -/
inductive Slot where
  | absent | native | foreign
  deriving DecidableEq, Repr

/-- The environment: the answers to calls, types and fields of objects, static variables. -/
structure Env where
  /-- Answers to the successive calls. -/
  reply : Nat → Reply
  /-- Objects that others keep alive as long as the code runs. -/
  held : Nat → Bool
  /-- `PyObject_TypeCheck(o, &SecurityProxyType)`. -/
  isProxy : Nat → Bool
  /-- `Py_TYPE(o) == Proxy`. -/
  exactProxy : Nat → Bool
  /-- `PyObject_TypeCheck(o, &CheckerType)`. -/
  isChecker : Nat → Bool
  /-- `PyUnicode_Check`. -/
  isStr : Nat → Bool
  /-- The content of a bytes object. -/
  bytes : Nat → List Char
  /-- `Py_TYPE`. -/
  typeOf : Nat → Nat
  /-- `proxy_object` and `proxy_checker` of a security proxy. -/
  wrapped : Nat → Nat
  checkerOf : Nat → Nat
  /-- `mp_ass_subscript` and `mp_subscript` of an object's type. -/
  assSlot : Nat → Slot
  subSlot : Nat → Slot
  /-- `tp_as_number` has the slot asked for. -/
  hasNumber : Nat → Bool
  /-- Static variables and constants. -/
  none : Nat
  notImplemented : Nat
  true_ : Nat
  false_ : Nat
  threadLocal : Nat
  checkerPublic : Nat
  noProxy : Nat
  defaultChecker : Nat
  checkers : Nat
  available : Nat
  proxyType : Nat
  /-- Exception types and interned strings. -/
  const : String → Nat

/-- The state of the machine. -/
structure Mem where
  /-- References the running code is responsible for. -/
  own : Nat → Nat
  /-- Objects borrowed from a dictionary that still has them. -/
  loose : Nat → Bool
  /-- The error indicator. -/
  err : Bool
  /-- `self->getperms` and `self->setperms` of checkers. -/
  getperms : Nat → Ptr
  setperms : Nat → Ptr
  /-- References that were in a field that has been overwritten without releasing them. -/
  lost : List Nat
  /-- Calls made so far with the answers, the latest first. -/
  log : List (Call × Reply)
  /-- The same calls in detail. -/
  asked : List Ask := []
  /-- The exception that was set last. -/
  raised : Raised := .nothing

/-- Outcome of a piece of code. -/
inductive Out (α : Type) where
  | ok (a : α) (m : Mem)
  | fault (f : Fault) (m : Mem)
  | diverge

/-- C code. -/
def C (α : Type) := Mem → Out α

instance : Monad C where
  pure a := fun m => .ok a m
  bind x k := fun m => match x m with
    | .ok a m => k a m
    | .fault f m => .fault f m
    | .diverge => .diverge

/-- The object certainly exists: the code owns a reference, or somebody keeps it. -/
def alive (E : Env) (m : Mem) (o : Nat) : Bool := 0 < m.own o || E.held o || m.loose o

def fail (f : Fault) : C α := fun m => .fault f m

/-- Using an object. -/
def use (E : Env) (o : Nat) : C Unit := fun m =>
  if alive E m o then .ok () m else .fault (.dangling o) m

def useAll (E : Env) : List Nat → C Unit
  | [] => pure ()
  | o :: r => do use E o; useAll E r

/-- Other code runs: the answer is logged, and borrowed objects may disappear. -/
def consult (E : Env) (k : Call) (f : Fn) (args : List Nat) : C Reply := fun m =>
  let r := E.reply m.log.length
  .ok r { m with log := (k, r) :: m.log, asked := ⟨f, args, m.raised, r⟩ :: m.asked,
                 loose := fun o => m.loose o && !(r.drops.contains o) }

/-- The error indicator with the exception it stands for. -/
def setErr (b : Bool) (e : Raised) : C Unit := fun m => .ok () { m with err := b, raised := e }

/-- `PyErr_Clear`. -/
def clearErr : C Unit := setErr false .nothing

/-- `PyErr_SetString`. -/
def setString (E : Env) (exc text : String) : C Unit := setErr true (.set (E.const exc) (E.const text))

/-- `Py_INCREF`. -/
def incref (E : Env) (o : Nat) : C Unit := do
  use E o
  fun m => .ok () { m with own := fun k => if k = o then m.own o + 1 else m.own k }

/-- `Py_DECREF`. -/
def decref (E : Env) (o : Nat) : C Unit := do
  fun m => if m.own o = 0 then .fault (.release o) m
    else .ok () { m with own := fun k => if k = o then m.own o - 1 else m.own k }
  let _ ← consult E .decref .destroy [o]
  pure ()

/-- `Py_XDECREF`. -/
def xdecref (E : Env) : Ptr → C Unit
  | .none => pure ()
  | some o => decref E o

/-- The code gets a reference of its own. -/
def gain (o : Nat) : C Unit := fun m =>
  .ok () { m with own := fun k => if k = o then m.own o + 1 else m.own k }

/-- The code gives a reference of its own away, to a field of a structure. -/
def give (o : Nat) : C Unit := fun m =>
  if m.own o = 0 then .fault (.release o) m
  else .ok () { m with own := fun k => if k = o then m.own o - 1 else m.own k }

/-- A call that returns a new reference, or NULL with the error indicator set. -/
def callObj (E : Env) (k : Call) (f : Fn) (args : List Nat) : C Ptr := do
  useAll E args
  let r ← consult E k f args
  if r.null then do
    setErr true (.callee r.obj)
    pure .none
  else do
    gain r.obj
    pure (some r.obj)

/-- `PyIter_Next`: NULL also means the end, without error. -/
def callNext (E : Env) (it : Nat) : C Ptr := do
  use E it
  let r ← consult E .iterNext (.user (.special "__next__")) [it]
  if r.null then do
    setErr (decide (r.num < 0)) (.callee r.obj)
    pure .none
  else do
    gain r.obj
    pure (some r.obj)

/-- A call that returns an int, negative with the error indicator set. -/
def callInt (E : Env) (k : Call) (f : Fn) (args : List Nat) : C Int := do
  useAll E args
  let r ← consult E k f args
  if r.num < 0 then do
    setErr true (.callee r.obj)
    pure r.num
  else pure r.num

/-- `PyObject_Hash`: only -1 means failure. -/
def callHash (E : Env) (o : Nat) : C Int := do
  useAll E [o]
  let r ← consult E .int (.user (.special "__hash__")) [o]
  if r.num = -1 then do
    setErr true (.callee r.obj)
    pure r.num
  else pure r.num

/-- A call that returns an int and cannot fail, such as `PyObject_HasAttr`. -/
def callTest (E : Env) (f : Fn) (args : List Nat) : C Bool := do
  useAll E args
  let r ← consult E .int f args
  pure (decide (r.num ≠ 0))

/-- `PyDict_GetItem`: a borrowed reference or NULL, errors are suppressed. -/
def dictGet (E : Env) (d key : Nat) : C Ptr := do
  useAll E [d, key]
  let r ← consult E .dictGet .dictGet [d, key]
  if r.null then pure .none
  else fun m => .ok (some r.obj) { m with loose := fun o => decide (o = r.obj) || m.loose o }

/-- The `char *` made by `MAKE_STRING(name)`, that is
`PyBytes_AS_STRING(PyUnicode_AsUTF8String(name))`: the first function gives a new reference, which
nobody releases, or NULL; the second one is pointer arithmetic. -/
def makeString (E : Env) (name : Nat) : C Ptr := callObj E .asUtf8 .utf8 [name]

/-- Reading the text through a `char *`; for the result of `PyBytes_AS_STRING(NULL)` a read from an
invalid address. -/
def readText (E : Env) : Ptr → C (List Char)
  | .none => fail .null
  | some b => do
    use E b
    pure (E.bytes b)

/-- Reading `self->getperms`: a borrowed reference. -/
def loadGetperms (self : Nat) : C Ptr := fun m =>
  .ok (m.getperms self) { m with loose := fun o => decide (m.getperms self = some o) || m.loose o }

/-- Reading `self->setperms`. -/
def loadSetperms (self : Nat) : C Ptr := fun m =>
  .ok (m.setperms self) { m with loose := fun o => decide (m.setperms self = some o) || m.loose o }

/-- The code gives a reference of its own, or NULL, away. -/
def givePtr : Ptr → C Unit
  | .none => pure ()
  | some o => give o

/-- `self->getperms = p`, where the code gives its reference to the field. -/
def storeGetperms (self : Nat) (p : Ptr) : C Unit := do
  givePtr p
  fun m => .ok () { m with
    getperms := fun k => if k = self then p else m.getperms k
    lost := (m.getperms self).toList ++ m.lost }

/-- `self->setperms = p`. -/
def storeSetperms (self : Nat) (p : Ptr) : C Unit := do
  givePtr p
  fun m => .ok () { m with
    setperms := fun k => if k = self then p else m.setperms k
    lost := (m.setperms self).toList ++ m.lost }

/-- `PyObject *t = self->getperms; self->getperms = 0;`: the reference moves from the field to the
code. -/
def takeGetperms (self : Nat) : C Ptr := fun m =>
  .ok (m.getperms self) { m with
    getperms := fun k => if k = self then .none else m.getperms k
    own := fun k => if m.getperms self = some k then m.own k + 1 else m.own k }

/-- The same for `self->setperms`. -/
def takeSetperms (self : Nat) : C Ptr := fun m =>
  .ok (m.setperms self) { m with
    setperms := fun k => if k = self then .none else m.setperms k
    own := fun k => if m.setperms self = some k then m.own k + 1 else m.own k }

/-- `PyErr_SetObject`. -/
def setObject (E : Env) (exc arg : Nat) : C Unit := do
  useAll E [exc, arg]
  setErr true (.set exc arg)

end ZS.CM
