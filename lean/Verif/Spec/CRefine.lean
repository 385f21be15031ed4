import Verif.Model.CCode
import Verif.Model.Proxy

/-!
# What it means for the C functions to compute what the models of the package say

The machine of `Model/CMem.lean` knows objects by number and lets other code answer as it likes.  Here
numbers are given a meaning, and a run is considered in which every call was answered as the model of the
package's surroundings (`World`, the dictionaries, the interaction, other checkers) would answer it.  Such a
run must end with the result of the corresponding definition of `Model/Checker.lean`, `Model/Select.lean` or
`Model/Proxy.lean`, and leave the same state behind.
-/

namespace ZS.CM
variable {A : Type}

/-- The meaning of numbers: which value or exception an object is, which permission dictionary, and
what is in a tuple. -/
structure Interp (A : Type) where
  X : Ctx A
  val : Nat → Val
  exn : Nat → Exn
  dict : Nat → Nat
  tuple : Nat → List Nat

/-- The text of a string used as a name. -/
def Interp.name (I : Interp A) (o : Nat) : Name :=
  match I.val o with
  | .str _ n => n
  | _ => ""

/-- The exception that is set: one that a call has set, or one of those raised by the modules
themselves, whose arguments are in a tuple. -/
def exnOf (E : Env) (I : Interp A) : Raised → Option Exn
  | .nothing => none
  | .callee e => some (I.exn e)
  | .set exc arg =>
    if exc = E.const "Unauthorized" then
      match I.tuple arg with
      | [o, n, p] => some (.unauthorized (I.val o) (I.name n) (I.val p))
      | _ => none
    else if exc = E.const "ForbiddenAttribute" then
      match I.tuple arg with
      | [n, o] => some (.forbidden (I.name n) (I.val o))
      | _ => none
    else if exc = E.const "ValueError" then some .valueError
    else if exc = E.const "TypeError" then some .typeError
    else none

/-- A result as an int: 0 and 1 for truth values, 0 where there is nothing to say. -/
def intOf : Val → Int
  | .int n => n
  | .bool b => if b then 1 else 0
  | _ => 0

/-! ## How calls are answered -/

/-- An object, or NULL with the exception. -/
def ObjAnswer (I : Interp A) (r : Reply) : Res Val → Prop
  | .ok v => r.null = false ∧ I.val r.obj = v
  | .err e => r.null = true ∧ I.exn r.obj = e
  | .diverge => False

/-- Some object, or NULL with the exception. -/
def DoneAnswer (I : Interp A) (r : Reply) : Res Unit → Prop
  | .ok () => r.null = false
  | .err e => r.null = true ∧ I.exn r.obj = e
  | .diverge => False

/-- An int, or -1 with the exception. -/
def IntAnswer (I : Interp A) (r : Reply) : Res Val → Prop
  | .ok v => r.num = intOf v ∧ r.num ≠ -1
  | .err e => r.num = -1 ∧ I.exn r.obj = e
  | .diverge => False

/-- 0, or -1 with the exception. -/
def ZeroAnswer (I : Interp A) (r : Reply) : Res Unit → Prop
  | .ok () => r.num = 0
  | .err e => r.num = -1 ∧ I.exn r.obj = e
  | .diverge => False

/-- A truth value. -/
def TestAnswer (r : Reply) (b : Bool) : Prop := r.num = if b then 1 else 0

/-- Something that may be missing. -/
def LookupAnswer (I : Interp A) (r : Reply) : Option Val → Prop
  | some v => r.null = false ∧ I.val r.obj = v
  | none => r.null = true

/-- The computation leads from one state to the other with a result as described. -/
def Runs {β : Type} (y : M A β) (s s' : St A) (P : Res β → Prop) : Prop := (y s).2 = s' ∧ P (y s).1

/-- `thread_local.interaction`. -/
def slot (X : Ctx A) : M A Val := do
  let s ← M.get
  match (s.threads X.tid).interaction with
  | none => M.throw (.attributeError "interaction")
  | some ix => pure ix

/-- The kind of check a method name stands for. -/
def kindOf (n : Name) : Option CheckKind :=
  if n = "check" then some .check
  else if n = "check_getattr" then some .getattr
  else if n = "check_setattr" then some .setattr
  else none

/-- Operations whose result is an int. -/
def UserFn.isInt : UserFn → Bool
  | .setAttr => true
  | .delAttr => true
  | .special n => n ∈ ["__len__", "__hash__", "__bool__", "__contains__", "__setitem__", "__delitem__"]
  | _ => false

/-- The operation a function of the API carries out.  Keyword arguments of calls are not represented. -/
def rawOf (E : Env) (I : Interp A) : UserFn → List Nat → Option RawOp
  | .getAttr, [w, n] => some (.getattr (I.val w) (I.name n))
  | .setAttr, [w, n, v] => some (.setattr (I.val w) (I.name n) (I.val v))
  | .delAttr, [w, n] => some (.delattr (I.val w) (I.name n))
  | .special n, w :: args =>
    if n = "__call__" then
      match args with
      | [t] => some (.special n (I.val w) ((I.tuple t).map I.val))
      | _ => none
    else some (.special n (I.val w) (args.map I.val))
  | .binary n, [l, r] => some (.binop n (I.val l) (I.val r))
  | .inplace n, [l, r] => some (.inplace n (I.val l) (I.val r))
  | .inplace n, [l, r, m] => if m = E.none then some (.inplace n (I.val l) (I.val r)) else none
  | .power, [a, b] => some (.pow (I.val a) (I.val b) .none)
  | .power, [a, b, m] => some (.pow (I.val a) (I.val b) (I.val m))
  | .compare n, [l, r] => some (.compare n (I.val l) (I.val r))
  | .method n, w :: args => some (.method (I.val w) n (args.map I.val))
  | _, _ => none

/-- What the function makes of the result of the operation. -/
def converted (X : Ctx A) : UserFn → Val → M A Val
  | .setAttr, _ => pure .none
  | .delAttr, _ => pure .none
  | .special n, v =>
    if n = "__len__" then asLen v
    else if n = "__hash__" then asInt v
    else if n = "__bool__" ∨ n = "__contains__" then pure (.bool (truthy X.W v))
    else if n = "__setitem__" ∨ n = "__delitem__" then pure .none
    else if n = "__str__" ∨ n = "__repr__" then asStr X.W v
    else pure v
  | _, v => pure v

/-- The text of `default_repr` (_proxy.c:399-412). -/
def reprOf (X : Ctx A) (module : Option (List Char)) (name : List Char) (o : Val) : String :=
  "<security proxied " ++ (match module with | some m => String.ofList m ++ "." | none => "") ++ String.ofList name ++
    " instance at " ++ X.W.addr o ++ ">"

/-- The call was answered as the surroundings of the package answer it in state `s`, leading to state
`s'`.  Destructors do nothing that matters, memory is not exhausted, and arguments are as expected by
`PyArg_ParseTuple`.  Calls the models know nothing about may be answered in any way and change anything. -/
def Explained (E : Env) (I : Interp A) (s : St A) (a : Ask) (s' : St A) : Prop :=
  let r := a.reply
  match a.fn, a.args with
  | .getAttr, [o, n] =>
    if o = E.threadLocal ∧ I.name n = "interaction" then Runs (slot I.X) s s' (ObjAnswer I r)
    else if I.name n = "__Security_checker__" then Runs (getSC I.X (I.val o)) s s' (ObjAnswer I r)
    else Runs (probe I.X (.getattr (I.val o) (I.name n))) s s' (ObjAnswer I r)
  | .call, [f, o] => Runs (callFactory I.X (I.val f) (I.val o)) s s' (ObjAnswer I r)
  | .call, [t, v, c] => t = E.proxyType → Runs (newProxy (I.val v) (I.val c)) s s' (ObjAnswer I r)
  | .callMethod, [o, m, a, b] =>
    if I.name m = "checkPermission" then Runs (ixCheckPermission I.X (I.val o) (I.val a) (I.val b)) s s' (ObjAnswer I r)
    else match kindOf (I.name m) with
      | some k => Runs (chkCheck I.X (hasattrX I.X) k (I.val o) (I.val a) (I.name b)) s s' (DoneAnswer I r)
      | none => True
  | .callMethod, [c, m, v] => I.name m = "proxy" → Runs (chkProxy I.X (I.val c) (I.val v)) s s' (ObjAnswer I r)
  | .subscript, [c, v] => Runs (chkProxy I.X (I.val c) (I.val v)) s s' (ObjAnswer I r)
  | .assSubscript, [c, o, n] => Runs (chkCheck I.X (hasattrX I.X) .check (I.val c) (I.val o) (I.name n)) s s' (ZeroAnswer I r)
  | .tuple, args => s' = s ∧ r.null = false ∧ I.tuple r.obj = args
  | .isTrue, [o] => s' = s ∧ TestAnswer r (truthy I.X.W (I.val o))
  | .contains, [d, n] => d = E.available → s' = s ∧ TestAnswer r (decide (I.name n ∈ s.avail))
  | .hasAttr, [o, n] => Runs (hasattrX I.X (I.val o) (I.name n)) s s' (fun res => ∃ b, res = .ok b ∧ TestAnswer r b)
  | .isInstance, [o, c] => c = E.const "Exception" → s' = s ∧ TestAnswer r (I.X.W.isExc (I.val o))
  | .dictGet, [d, k] =>
    s' = s ∧ if d = E.checkers then
        match I.val k with
        | .type t => LookupAnswer I r (s.reg.get? (.ty t))
        | _ => True
      else LookupAnswer I r ((s.dicts (I.dict d)).get? (I.name k))
  | .utf8, [o] =>
    s' = s ∧ match I.val o with
      | .str _ t => r.null = false ∧ E.bytes r.obj = t.toList
      | _ => r.null = true ∧ I.exn r.obj = .typeError
  | .parse, _ => s' = s ∧ r.null = false
  | .destroy, _ => s' = s
  | .exceptionMatches, [c] => c = E.const "AttributeError" → s' = s ∧ ∀ e, exnOf E I a.raised = some e → TestAnswer r e.isAttr
  | .fromLong i, [] => s' = s ∧ r.null = false ∧ I.val r.obj = .int i
  | .format module name, [o] => s' = s ∧ r.null = false ∧ I.val r.obj = .str 0 (reprOf I.X module name (I.val o))
  | .user u, args => ∀ op, rawOf E I u args = some op →
      Runs (perform I.X op >>= converted I.X u) s s' (if u.isInt then IntAnswer I r else ObjAnswer I r)
  | _, _ => True

/-- All calls of a list, the earliest first, were answered like that. -/
inductive Explains (E : Env) (I : Interp A) : St A → List Ask → St A → Prop
  | nil (s : St A) : Explains E I s [] s
  | cons {s s1 s2 : St A} {a : Ask} {l : List Ask} : Explained E I s a s1 → Explains E I s1 l s2 → Explains E I s (a :: l) s2

/-! ## How objects are represented -/

/-- The environment represents the values: different objects are different values; the static variables
and constants, types, proxies and checkers are what they should be. -/
structure Fits (E : Env) (I : Interp A) : Prop where
  impl : I.X.impl = .c
  inj : ∀ a b, I.val a = I.val b → a = b
  none : I.val E.none = .none
  notImplemented : I.val E.notImplemented = .notImpl
  true_ : I.val E.true_ = .bool true
  false_ : I.val E.false_ = .bool false
  checkerPublic : I.val E.checkerPublic = publicV
  noProxy : I.val E.noProxy = .noProxy
  defaultChecker : I.val E.defaultChecker = defaultChecker
  const : ∀ n, I.val (E.const n) = .str 0 n
  typeOf : ∀ o, I.val (E.typeOf o) = .type (typeOf I.X.W (I.val o))
  isProxy : ∀ o, E.isProxy o = (I.val o).isProxy
  exactProxy : ∀ o, E.exactProxy o = (I.val o).isProxy
  isChecker : ∀ o, E.isChecker o = (I.val o).isChecker
  isStr : ∀ o a n, I.val o = .str a n → E.isStr o = true
  wrapped : ∀ p i w c, I.val p = .proxy i w c → I.val (E.wrapped p) = w
  checkerOf : ∀ p i w c, I.val p = .proxy i w c → I.val (E.checkerOf p) = c
  assSlot : ∀ c, E.assSlot c = match I.val c with
    | .checker .. => .native
    | .combined .. => .foreign
    | _ => .absent
  subSlot : ∀ c, E.subSlot c = if (I.val c).isChecker then .native else .absent

/-- The field of a checker refers to the dictionary with this number; NULL stands for an empty one. -/
def FieldIs (E : Env) (I : Interp A) (s : St A) (g : Nat) : Ptr → Prop
  | some d => I.dict d = g ∧ d ≠ E.checkers
  | .none => s.dicts g = []

/-- The fields of the checker are as its value says. -/
def FieldsOf (E : Env) (I : Interp A) (c : Nat) (m : Mem) (s : St A) : Prop :=
  ∀ g st, checkerDicts (I.val c) = some (g, st) → FieldIs E I s g (m.getperms c) ∧ FieldIs E I s st (m.setperms c)

/-! ## Results -/

/-- The object returned is the result; NULL is returned with the exception set. -/
def ObjResult (E : Env) (I : Interp A) (p : Ptr) (m : Mem) : Res Val → Prop
  | .ok v => ∃ o, p = some o ∧ I.val o = v
  | .err e => p = none ∧ exnOf E I m.raised = some e
  | .diverge => False

/-- A negative number means failure, with the exception set. -/
def CheckResult (E : Env) (I : Interp A) (i : Int) (m : Mem) : Res Unit → Prop
  | .ok () => 0 ≤ i
  | .err e => i < 0 ∧ exnOf E I m.raised = some e
  | .diverge => False

/-- The number returned is the result, or -1 with the exception set. -/
def IntResult (E : Env) (I : Interp A) (i : Int) (m : Mem) : Res Val → Prop
  | .ok v => i = intOf v ∧ i ≠ -1
  | .err e => i = -1 ∧ exnOf E I m.raised = some e
  | .diverge => False

/-- None for a check that is passed. -/
def NoneResult (E : Env) (I : Interp A) (p : Ptr) (m : Mem) : Res Unit → Prop
  | .ok () => p = some E.none
  | .err e => p = none ∧ exnOf E I m.raised = some e
  | .diverge => False

/-- The C code agrees with the computation: whenever it ends and its calls are explained from a state on
(related to the memory by `P`), the computation leads to the same state, with a related result. -/
def Refines {α β : Type} (E : Env) (I : Interp A) (P : Mem → St A → Prop) (x : C α) (y : M A β)
    (R : α → Mem → Res β → Prop) : Prop :=
  ∀ m s a m', P m s → x m = .ok a m' → ∃ l, m'.asked = l ++ m.asked ∧
    ∀ s', Explains E I s l.reverse s' → (y s).2 = s' ∧ R a m' (y s).1

end ZS.CM
