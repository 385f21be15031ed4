import Verif.Model.CCode
import Verif.Source.CFiles

/-!
# Running the C source

An interpreter for the syntax of `Model/CSyntax.lean` on the machine of `Model/CMem.lean`: expressions are evaluated from
left to right, `&&` and `||` only as far as needed, and calls of the functions of the two files run their bodies from
`Source/CFiles.lean`.  What is done with objects is done by the machine: reading a member of a structure uses the object,
a call of the C API is the machine's call with the same arguments, NULL where an object is needed is a fault.  Anything
that the interpreter does not know is a fault too.

It is written with continuations: `k` is what remains to be done.

Simplifications: the `args` tuple of a function is the list of the objects in it; `PyArg_ParseTuple` succeeds or not, as the
environment says; numbers do not overflow; strings that the initialisation functions intern are equal as pointers just
if they are equal as texts; `CLEAR` is one step (the macro puts the value aside, stores 0 and releases it with
`Py_XDECREF`).
-/

namespace ZS.CS
open ZS.CM

/-- The environment of the machine, a bound for the iterations of loops, and which objects' types have no
`tp_as_mapping` and no `tp_as_number`. -/
structure Host where
  E : Env
  fuel : Nat
  noMapping : Nat → Bool
  noNumber : Nat → Bool

/-- Values of C. -/
inductive V
  /-- `PyObject *` -/
  | ptr (p : Ptr)
  /-- an interned string or an exception type, by its text -/
  | name (s : String)
  | int (i : Int)
  | char (c : Char)
  /-- `char *` into a bytes object, and a literal -/
  | text (p : Ptr)
  | lit (s : String)
  | fn (f : String)
  | api (a : Api)
  /-- `Py_TYPE(o)` -/
  | typeObj (o : Nat)
  /-- `o->ob_type`, its `tp_as_mapping` and `tp_as_number`, and the members of these -/
  | type (o : Nat)
  | mapping (o : Nat)
  | numbers (o : Nat)
  | slot (o : Nat) (f : Fld)
  /-- a static type object, its base, and `tp_clear` of the base -/
  | static (t : String)
  | base (t : String)
  | baseClear (t : String)
  /-- an argument tuple -/
  | tuple (l : List Nat)
  | void

/-- The result of a comparison. -/
def V.ofBool (b : Bool) : V := .int (if b then 1 else 0)

/-- The slot is filled. -/
def Host.filled (H : Host) (o : Nat) : Fld → Bool
  | .mp_ass_subscript => decide (H.E.assSlot o ≠ .absent)
  | .mp_subscript => decide (H.E.subSlot o ≠ .absent)
  | .nb_int => H.E.hasNumber o
  | .nb_float => H.E.hasNumber o
  | _ => true

/-- A value as a condition. -/
def truth (H : Host) : V → Bool
  | .ptr p => p.isSome
  | .int i => decide (i ≠ 0)
  | .mapping o => !H.noMapping o
  | .numbers o => !H.noNumber o
  | .slot o f => H.filled o f
  | .void => false
  | _ => true

/-- `==`.  The `char *` that `PyBytes_AS_STRING` computes is never NULL; whether a type is `Proxy` the environment says
(`Env.exactProxy`). -/
def same (H : Host) : V → V → Option Bool
  | .ptr p, .ptr q => some (decide (p = q))
  | .name s, .name t => some (decide (s = t))
  | .ptr p, .name s => some (decide (p = some (H.E.const s)))
  | .name s, .ptr p => some (decide (p = some (H.E.const s)))
  | .typeObj o, .ptr p => some (if p = some H.E.proxyType then H.E.exactProxy o else decide (p = some (H.E.typeOf o)))
  | .int i, .int j => some (decide (i = j))
  | .char c, .char d => some (decide (c = d))
  | .text _, .ptr none => some false
  | .mapping o, .ptr none => some (H.noMapping o)
  | .numbers o, .ptr none => some (H.noNumber o)
  | .slot o f, .ptr none => some (!H.filled o f)
  | _, _ => none

/-- The static variables and constants: interned strings, what is imported, and the rest. -/
def glob (H : Host) (n : String) : V :=
  match Src.strings.lookup n with
  | some s => .name s
  | none =>
    match Src.imports.lookup n with
    | some s =>
      if s = "_Proxy" then .ptr (some H.E.proxyType)
      else if s = "thread_local" then .ptr (some H.E.threadLocal)
      else if s = "CheckerPublic" then .ptr (some H.E.checkerPublic)
      else .name s
    | none =>
      if n = "Py_None" then .ptr (some H.E.none)
      else if n = "Py_True" then .ptr (some H.E.true_)
      else if n = "Py_False" then .ptr (some H.E.false_)
      else if n = "Py_NotImplemented" then .ptr (some H.E.notImplemented)
      else if n = "NoProxy" then .ptr (some H.E.noProxy)
      else if n = "_defaultChecker" then .ptr (some H.E.defaultChecker)
      else if n = "_checkers" then .ptr (some H.E.checkers)
      else if n = "_available_by_default" then .ptr (some H.E.available)
      else if n = "PyExc_ValueError" then .name "ValueError"
      else if n = "PyExc_TypeError" then .name "TypeError"
      else if n = "PyExc_AttributeError" then .name "AttributeError"
      else if n = "PyExc_Exception" then .name "Exception"
      else .static n

/-- Something that C does not define, or that the interpreter does not know. -/
def stuck : C V := fail .null

/-- An object. -/
def V.obj (H : Host) : V → Option Nat
  | .ptr p => p
  | .name s => some (H.E.const s)
  | .typeObj o => some (H.E.typeOf o)
  | _ => none

/-- Arguments that must all be objects. -/
def objs (H : Host) : List V → Option (List Nat)
  | [] => some []
  | v :: r => match v.obj H, objs H r with
    | some o, some l => some (o :: l)
    | _, _ => none

/-- Arguments up to a NULL. -/
def upto (H : Host) : List V → Option (List Nat)
  | [] => none
  | .ptr none :: _ => some []
  | v :: r => match v.obj H, upto H r with
    | some o, some l => some (o :: l)
    | _, _ => none

/-- The objects that `Py_BuildValue` puts into a tuple. -/
def built (H : Host) : List Char → List V → Option (List Nat)
  | [], [] => some []
  | 'O' :: f, v :: r => match v.obj H, built H f r with
    | some o, some l => some (o :: l)
    | _, _ => none
  | 's' :: f, .lit _ :: r => built H f r
  | _, _ => none

/-- A call of the machine with a list of objects. -/
def withObjs (l : Option (List Nat)) (f : List Nat → C V) : C V :=
  match l with
  | some l => f l
  | none => stuck

/-- An operation for the user of a proxy. -/
def user (H : Host) (u : UserFn) (vs : List V) (k : V → C V) : C V :=
  withObjs (objs H vs) fun l => CM.api H.E u l >>= fun p => k (.ptr p)

/-- A function of the C API that returns an object. -/
def newRef (H : Host) (c : Call) (f : Fn) (l : Option (List Nat)) (k : V → C V) : C V :=
  withObjs l fun l => callObj H.E c f l >>= fun p => k (.ptr p)

/-- A function of the C API that returns a number. -/
def number (H : Host) (c : Call) (f : Fn) (l : Option (List Nat)) (k : V → C V) : C V :=
  withObjs l fun l => callInt H.E c f l >>= fun i => k (.int i)

/-- A function of the C API that returns a number and does not fail. -/
def test (H : Host) (f : Fn) (l : Option (List Nat)) (k : V → C V) : C V :=
  withObjs l fun l => callTest H.E f l >>= fun b => k (.ofBool b)

/-- The function called for the user of the proxy, or by the modules for themselves. -/
def tagged (u : Bool) (a b : Fn) : Fn := if u then a else b

/-- Calls of the C API.  `u`: in a function that carries out an operation of a proxy. -/
def callApi (H : Host) (u : Bool) (a : Api) (vs : List V) (k : V → C V) : C V :=
  match a with
  | .Py_INCREF => match vs with
    | [.ptr (some o)] => incref H.E o >>= fun _ => k .void
    | _ => stuck
  | .Py_XINCREF => match vs with
    | [.ptr p] => xincref H.E p >>= fun _ => k .void
    | _ => stuck
  | .Py_DECREF => match vs with
    | [.ptr (some o)] => decref H.E o >>= fun _ => k .void
    | _ => stuck
  | .Py_XDECREF => match vs with
    | [.ptr p] => xdecref H.E p >>= fun _ => k .void
    | _ => stuck
  | .Py_TYPE => match vs with
    | [.ptr (some o)] => use H.E o >>= fun _ => k (.typeObj o)
    | _ => stuck
  | .PyObject_TypeCheck => match vs with
    | [.ptr (some o), .static t] => use H.E o >>= fun _ =>
      if t = "CheckerType" then k (.ofBool (H.E.isChecker o))
      else if t = "SecurityProxyType" then k (.ofBool (H.E.isProxy o))
      else stuck
    | _ => stuck
  | .PyErr_Clear => clearErr >>= fun _ => k .void
  | .PyErr_SetObject => match vs with
    | [e, v] => match e.obj H, v.obj H with
      | some e, some v => setObject H.E e v >>= fun _ => k .void
      | _, _ => stuck
    | _ => stuck
  | .PyErr_SetString => match vs with
    | [.name e, .lit s] => setString H.E e s >>= fun _ => k .void
    | _ => stuck
  | .PyErr_ExceptionMatches => test H .exceptionMatches (objs H vs) k
  | .PyDict_GetItem => match objs H vs with
    | some [d, key] => dictGet H.E d key >>= fun p => k (.ptr p)
    | _ => stuck
  | .PyDict_New => newRef H .api .dictNew (objs H vs) k
  | .PyObject_GetAttr => match vs with
    | [o, .name "__Security_checker__"] =>
      newRef H .securityChecker (tagged u (.user .getAttr) .getAttr) (objs H [o, .name "__Security_checker__"]) k
    | vs => newRef H .api (tagged u (.user .getAttr) .getAttr) (objs H vs) k
  | .PyObject_SetAttr => match vs with
    | [o, n, .ptr none] => number H .int (.user .delAttr) (objs H [o, n]) k
    | vs => number H .int (.user .setAttr) (objs H vs) k
  | .PyObject_HasAttr => test H .hasAttr (objs H vs) k
  | .PyObject_IsInstance => number H .isInstance .isInstance (objs H vs) k
  | .PyObject_IsTrue => number H .int (tagged u (.user (.special "__bool__")) .isTrue) (objs H vs) k
  | .PySequence_Contains => number H .int (tagged u (.user (.special "__contains__")) .contains) (objs H vs) k
  | .PyObject_CallMethodObjArgs => newRef H .api .callMethod (upto H vs) k
  | .PyObject_CallFunctionObjArgs => newRef H .api .call (upto H vs) k
  | .PyObject_CallMethod => match vs with
    | [o, .lit s, .ptr none] => user H (.method s) [o] k
    | _ => stuck
  | .PyObject_Call => match vs with
    | [o, args, .ptr kw] => withObjs (objs H [o, args]) fun l => CM.api H.E (.special "__call__") (l ++ kw.toList) >>= fun p => k (.ptr p)
    | _ => stuck
  | .Py_BuildValue => match vs with
    | .lit f :: vs => newRef H .api .tuple (built H f.toList vs) k
    | _ => stuck
  | .PyUnicode_Check => match vs with
    | [.ptr (some o)] => use H.E o >>= fun _ => k (.ofBool (H.E.isStr o))
    | _ => stuck
  | .PyUnicode_AsUTF8String => match vs with
    | [.ptr (some o)] => makeString H.E o >>= fun p => k (.ptr p)
    | _ => stuck
  | .PyBytes_AS_STRING => match vs with
    | [.ptr p] => k (.text p)
    | _ => stuck
  | .strcmp => match vs with
    | [.lit s, .text p] => readText H.E p >>= fun t => k (.int (if t = s.toList then 0 else 1))
    | _ => stuck
  | .PyUnicode_FromFormat => match vs with
    | [.lit f, .text m, .text n, .ptr (some o)] =>
      if f = "<security proxied %s.%s instance at %p>" then
        readText H.E m >>= fun m => readText H.E n >>= fun n => newRef H .api (.format (some m) n) (some [o]) k
      else stuck
    | [.lit f, .text n, .ptr (some o)] =>
      if f = "<security proxied %s instance at %p>" then
        readText H.E n >>= fun n => newRef H .api (.format none n) (some [o]) k
      else stuck
    | _ => stuck
  | .PyLong_FromLong => match vs with
    | [.int i] => newRef H .api (.fromLong i) (some []) k
    | _ => stuck
  | .PyIter_Next => match vs with
    | [.ptr (some o)] => callNext H.E o >>= fun p => k (.ptr p)
    | _ => stuck
  | .PyObject_Hash => match vs with
    | [.ptr (some o)] => callHash H.E o >>= fun i => k (.int i)
    | _ => stuck
  | .PyObject_RichCompare => match vs with
    | [a, b, .lit op] => user H (.compare op) [a, b] k
    | _ => stuck
  | .PyNumber_Power => match vs with
    | [a, b, .ptr c] => withObjs (objs H [a, b]) fun l => CM.api H.E .power (l ++ c.toList) >>= fun p => k (.ptr p)
    | _ => stuck
  | .PyObject_Length => number H .int (.user (.special "__len__")) (objs H vs) k
  | .PyObject_SetItem => number H .int (.user (.special "__setitem__")) (objs H vs) k
  | .PyObject_DelItem => number H .int (.user (.special "__delitem__")) (objs H vs) k
  | .PyObject_GetItem => user H (.special "__getitem__") vs k
  | .PyObject_GetIter => user H (.special "__iter__") vs k
  | .PyObject_Str => user H (.special "__str__") vs k
  | .PyObject_Repr => user H (.special "__repr__") vs k
  | .PyNumber_Negative => user H (.special "__neg__") vs k
  | .PyNumber_Positive => user H (.special "__pos__") vs k
  | .PyNumber_Absolute => user H (.special "__abs__") vs k
  | .PyNumber_Invert => user H (.special "__invert__") vs k
  | .PyNumber_Add => user H (.binary "__add__") vs k
  | .PyNumber_Subtract => user H (.binary "__sub__") vs k
  | .PyNumber_Multiply => user H (.binary "__mul__") vs k
  | .PyNumber_Remainder => user H (.binary "__mod__") vs k
  | .PyNumber_Divmod => user H (.binary "__divmod__") vs k
  | .PyNumber_Lshift => user H (.binary "__lshift__") vs k
  | .PyNumber_Rshift => user H (.binary "__rshift__") vs k
  | .PyNumber_And => user H (.binary "__and__") vs k
  | .PyNumber_Xor => user H (.binary "__xor__") vs k
  | .PyNumber_Or => user H (.binary "__or__") vs k
  | .PyNumber_FloorDivide => user H (.binary "__floordiv__") vs k
  | .PyNumber_TrueDivide => user H (.binary "__truediv__") vs k
  | .PyNumber_InPlaceAdd => user H (.inplace "__iadd__") vs k
  | .PyNumber_InPlaceSubtract => user H (.inplace "__isub__") vs k
  | .PyNumber_InPlaceMultiply => user H (.inplace "__imul__") vs k
  | .PyNumber_InPlaceRemainder => user H (.inplace "__imod__") vs k
  | .PyNumber_InPlacePower => user H (.inplace "__ipow__") vs k
  | .PyNumber_InPlaceLshift => user H (.inplace "__ilshift__") vs k
  | .PyNumber_InPlaceRshift => user H (.inplace "__irshift__") vs k
  | .PyNumber_InPlaceAnd => user H (.inplace "__iand__") vs k
  | .PyNumber_InPlaceXor => user H (.inplace "__ixor__") vs k
  | .PyNumber_InPlaceOr => user H (.inplace "__ior__") vs k
  | .PyNumber_InPlaceFloorDivide => user H (.inplace "__ifloordiv__") vs k
  | .PyNumber_InPlaceTrueDivide => user H (.inplace "__itruediv__") vs k

/-- `v->f`. -/
def readField (H : Host) (v : V) (f : Fld) (k : V → C V) : C V :=
  match v with
  | .ptr (some o) => match f with
    | .getperms => use H.E o >>= fun _ => loadGetperms o >>= fun p => k (.ptr p)
    | .setperms => use H.E o >>= fun _ => loadSetperms o >>= fun p => k (.ptr p)
    | .proxy_checker => use H.E o >>= fun _ => k (.ptr (some (H.E.checkerOf o)))
    | .proxy_object => use H.E o >>= fun _ => k (.ptr (some (H.E.wrapped o)))
    | .ob_type => use H.E o >>= fun _ => k (.type o)
    | .tp_alloc => use H.E o >>= fun _ => k (.slot o .tp_alloc)
    | _ => stuck
  | .type o => match f with
    | .tp_as_mapping => k (.mapping o)
    | .tp_as_number => k (.numbers o)
    | _ => stuck
  | .mapping o => if H.noMapping o then stuck else match f with
    | .mp_ass_subscript => k (.slot o .mp_ass_subscript)
    | .mp_subscript => k (.slot o .mp_subscript)
    | _ => stuck
  | .numbers o => if H.noNumber o then stuck else match f with
    | .nb_int => k (.slot o .nb_int)
    | .nb_float => k (.slot o .nb_float)
    | _ => stuck
  | .static t => match f with
    | .tp_base => k (.base t)
    | _ => stuck
  | .base t => match f with
    | .tp_clear => k (.baseClear t)
    | _ => stuck
  | _ => stuck

/-- Only the pointer. -/
def V.plain (H : Host) : V → V
  | .name s => .ptr (some (H.E.const s))
  | .typeObj o => .ptr (some (H.E.typeOf o))
  | v => v

/-- Calling a slot of a type: the functions of `CheckerType` if it has these, other code if it has something else. -/
def callSlot (H : Host) (call : String → List V → C V) (o : Nat) (f : Fld) (vs : List V) (k : V → C V) : C V :=
  match f with
  | .mp_ass_subscript => match H.E.assSlot o with
    | .native => call "Checker_check_int" (vs.map (V.plain H)) >>= k
    | .foreign => number H .int .assSubscript (objs H vs) k
    | .absent => stuck
  | .mp_subscript => match H.E.subSlot o with
    | .native => call "Checker_proxy" (vs.map (V.plain H)) >>= k
    | .foreign => newRef H .api .subscript (objs H vs) k
    | .absent => stuck
  | .nb_int => if H.E.hasNumber o then user H (.special "__int__") vs k else stuck
  | .nb_float => if H.E.hasNumber o then user H (.special "__float__") vs k else stuck
  | .tp_alloc => match vs with
    | [.ptr (some t), .int 0] => newRef H .api .alloc (some [t]) k
    | _ => stuck
  | _ => stuck

/-- Calling a value. -/
def apply (H : Host) (call : String → List V → C V) (u : Bool) (f : V) (vs : List V) (k : V → C V) : C V :=
  match f with
  | .fn g => call g vs >>= k
  | .api a => callApi H u a vs k
  | .slot o f => callSlot H call o f vs k
  | .baseClear _ => test H .baseClear (objs H vs) k
  | _ => stuck

/-- The variables, the latest value first. -/
abbrev Locals := List (String × V)

def look : Locals → String → V
  | [], _ => .void
  | (x, v) :: l, y => if x = y then v else look l y

/-- A comparison of two values. -/
def compared (b : Option Bool) (k : V → C V) : C V :=
  match b with
  | some b => k (.ofBool b)
  | none => stuck

/-- `<` and `>=` of numbers. -/
def ordered (f : Int → Int → Bool) (v w : V) (k : V → C V) : C V :=
  match v, w with
  | .int i, .int j => k (.ofBool (f i j))
  | _, _ => stuck

mutual

/-- Evaluating an expression. -/
def eval (H : Host) (call : String → List V → C V) (u : Bool) (l : Locals) : X → (V → C V) → C V
  | .var n, k => k (look l n)
  | .glob n, k => k (glob H n)
  | .fn n, k => k (.fn n)
  | .api a, k => k (.api a)
  | .int i, k => k (.int i)
  | .null, k => k (.ptr none)
  | .str s, k => k (.lit s)
  | .chr c, k => k (.char c)
  | .addr n, k => k (.static n)
  | .field e f, k => eval H call u l e fun v => readField H v f k
  | .index e i, k => eval H call u l e fun v => match v with
    | .text p => readText H.E p >>= fun t => k (.char (t.getD i '\x00'))
    | _ => stuck
  | .not e, k => eval H call u l e fun v => k (.ofBool (!truth H v))
  | .and a b, k => eval H call u l a fun v =>
    if truth H v then eval H call u l b fun w => k (.ofBool (truth H w)) else k (.ofBool false)
  | .or a b, k => eval H call u l a fun v =>
    if truth H v then k (.ofBool true) else eval H call u l b fun w => k (.ofBool (truth H w))
  | .eq a b, k => eval H call u l a fun v => eval H call u l b fun w => compared (same H v w) k
  | .ne a b, k => eval H call u l a fun v => eval H call u l b fun w => compared ((same H v w).map (!·)) k
  | .lt a b, k => eval H call u l a fun v => eval H call u l b fun w => ordered (fun i j => decide (i < j)) v w k
  | .ge a b, k => eval H call u l a fun v => eval H call u l b fun w => ordered (fun i j => decide (j ≤ i)) v w k
  | .call f args, k => eval H call u l f fun f => evalAll H call u l args fun vs => apply H call u f vs k

def evalAll (H : Host) (call : String → List V → C V) (u : Bool) (l : Locals) : List X → (List V → C V) → C V
  | [], k => k []
  | e :: r, k => eval H call u l e fun v => evalAll H call u l r fun vs => k (v :: vs)

end

/-- `o->f = v`: the code gives its reference to the member. -/
def writeField (H : Host) (o : V) (f : Fld) (v : V) (k : C V) : C V :=
  match o, v with
  | .ptr (some o), .ptr p => use H.E o >>= fun _ => match f with
    | .getperms => storeGetperms o p >>= fun _ => k
    | .setperms => storeSetperms o p >>= fun _ => k
    | .proxy_object => givePtr p >>= fun _ => k
    | .proxy_checker => givePtr p >>= fun _ => k
    | _ => stuck
  | _, _ => stuck

/-- `CLEAR(o->f)`. -/
def clearField (H : Host) (o : V) (f : Fld) (k : C V) : C V :=
  match o with
  | .ptr (some o) => use H.E o >>= fun _ => match f with
    | .getperms => takeGetperms o >>= fun t => xdecref H.E t >>= fun _ => k
    | .setperms => takeSetperms o >>= fun t => xdecref H.E t >>= fun _ => k
    | .proxy_checker => gain (H.E.checkerOf o) >>= fun _ => decref H.E (H.E.checkerOf o) >>= fun _ => k
    | _ => stuck
  | _ => stuck

/-- The variables that the arguments go to. -/
def assigned : List String → List Nat → Locals → Locals
  | x :: xs, o :: os, l => assigned xs os ((x, .ptr (some o)) :: l)
  | _, _, l => l

/-- `while`, at most so many times. -/
def loopN (cond : Locals → (V → C V) → C V) (body : Locals → (Locals → C V) → C V) (H : Host) (k : Locals → C V) : Nat → Locals → C V
  | 0, _ => fun _ => .diverge
  | n + 1, l => cond l fun v => if truth H v then body l (loopN cond body H k n) else k l

/-- Running statements. -/
def exec (H : Host) (call : String → List V → C V) (u : Bool) (jump : String → Locals → C V) : S → Locals → (Locals → C V) → C V
  | .done, l, k => k l
  | .set x e r, l, k => eval H call u l e fun v => exec H call u jump r ((x, v) :: l) k
  | .store o f e r, l, k => eval H call u l o fun o => eval H call u l e fun v => writeField H o f v (exec H call u jump r l k)
  | .clear o f r, l, k => eval H call u l o fun o => clearField H o f (exec H call u jump r l k)
  | .eval e r, l, k => eval H call u l e fun _ => exec H call u jump r l k
  | .ite c a b r, l, k => eval H call u l c fun v =>
    if truth H v then exec H call u jump a l fun l => exec H call u jump r l k
    else exec H call u jump b l fun l => exec H call u jump r l k
  | .loop c body r, l, k =>
    loopN (fun l k => eval H call u l c k) (fun l k => exec H call u jump body l k) H (fun l => exec H call u jump r l k) H.fuel l
  | .parse args need outs fail r, l, k => eval H call u l args fun v => match v with
    | .tuple os => CM.parse H.E os >>= fun ok =>
      if ok then
        if need ≤ os.length ∧ os.length ≤ outs.length then exec H call u jump r (assigned outs os l) k else stuck
      else exec H call u jump fail l fun l => exec H call u jump r l k
    | _ => stuck
  | .ret e, l, _ => eval H call u l e pure
  | .goto x, l, _ => jump x l
  | .label _ r, l, k => exec H call u jump r l k

/-- The statements from a label on. -/
def S.after (x : String) : S → Option S
  | .done => none
  | .set _ _ r => r.after x
  | .store _ _ _ r => r.after x
  | .clear _ _ r => r.after x
  | .eval _ r => r.after x
  | .ite _ _ _ r => r.after x
  | .loop _ _ r => r.after x
  | .parse _ _ _ _ r => r.after x
  | .ret _ => none
  | .goto _ => none
  | .label y r => if y = x then some r else r.after x

/-- The functions in which a call of the C API is an operation for the user of a proxy, and others like it. -/
def forUser : List String := ["proxy_getattro", "proxy_bool", "proxy_contains"]

/-- `goto x` in a function with this body. -/
def jumping (H : Host) (call : String → List V → C V) (u : Bool) (body : S) (x : String) (l : Locals) : C V :=
  match body.after x with
  | some s => exec H call u (fun _ _ => stuck) s l (fun _ => pure .void)
  | none => stuck

/-- Running a function of the files; `d` bounds the depth of calls. -/
def run (H : Host) : Nat → String → List V → C V
  | 0, _, _ => fun _ => .diverge
  | d + 1, f, vs =>
    match Src.functions.find? (fun g => g.name == f) with
    | some g =>
      if g.params.length = vs.length then
        exec H (run H d) (forUser.contains f) (jumping H (run H d) (forUser.contains f) g.body) g.body
          (g.params.zip vs).reverse (fun _ => pure .void)
      else stuck
    | none => stuck

end ZS.CS
