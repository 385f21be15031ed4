import Verif.Model.Py

/-!
# State, outside world, and the execution monad
-/

namespace ZS

/-- Operations of the Python runtime on unproxied values, as carried out by the package.
`special n v args` is the runtime operation that special method `n` implements
(`PyObject_GetItem`, `len`, `PyNumber_Negative`, a call ...); `binop`, `inplace`, `pow` and
`compare` are the operators with their operands in order; `method` is `v.m(*args)`;
`baseGetattr` is `zope.proxy.PyProxyBase.__getattribute__` on a proxy of `v`. -/
inductive RawOp where
  | getattr (v : Val) (n : Name)
  | baseGetattr (v : Val) (n : Name)
  | setattr (v : Val) (n : Name) (x : Val)
  | delattr (v : Val) (n : Name)
  | special (n : Name) (v : Val) (args : List Val)
  | binop (n : Name) (l r : Val)
  | inplace (n : Name) (l r : Val)
  | pow (a b m : Val)
  | compare (n : Name) (l r : Val)
  | method (v : Val) (m : Name) (args : List Val)
  | call (f : Val) (args : List Val)
  deriving DecidableEq, Repr

/-- Ghost trace events: an operation carried out on behalf of the user of a proxy, or an
internal probe (attribute probes of checks and of checker selection, calls of policies,
checker factories and foreign checkers). -/
inductive Event where
  | performed (r : RawOp)
  | probed (r : RawOp)
  deriving DecidableEq, Repr

/-- Principals; only `is system_user` matters (simplepolicies.py:64-66). -/
inductive Principal where
  | system
  | user (id : String)
  deriving DecidableEq, Repr

/-- A participation (testing.py:44-53): principal and the `interaction` attribute. -/
structure Part where
  principal : Principal
  interaction : Val
  deriving Repr, DecidableEq

/-- An instance of one of the built-in policies (simplepolicies.py:32-78). -/
structure IxObj where
  permissive : Bool
  participations : List Nat
  deriving Repr, DecidableEq

/-- `_defaultPolicy` (management.py:45): one of the built-in classes or any other callable. -/
inductive Policy where
  | paranoid
  | permissive
  | custom (f : Val)
  deriving DecidableEq, Repr

/-- The attributes of `thread_local` in one thread (_definitions.py:23); `none` is an unset
attribute. -/
structure Slots where
  interaction : Option Val
  previous : Option Val
  deriving DecidableEq, Repr

/-- The whole mutable state.

* `reg` is `_checkers` (checker.py:505), `basic` is `BasicTypes` (checker.py:803),
  `defaults` is `_default_checkers` (checker.py:842);
* `dicts` is the heap of permission dictionaries, `nextId` allocates identifiers;
* `avail` is `_available_by_default` (checker.py:508, 720-727);
* `threads` are the thread-local slots, `policy` is `_defaultPolicy`;
* `ixs`, `parts` are interactions of the built-in policies and participations;
* `ovW`, `ovC` hold re-assigned `_wrapped`/`_checker` slots of pure-Python proxies;
* `parents` holds `__parent__` of location proxies;
* `app` is the application's own state;
* `trace` is ghost. -/
structure St (A : Type) where
  reg : PyDict Key Val
  basic : PyDict Key Val
  defaults : PyDict Key Val
  dicts : Nat → PyDict Name Val
  nextId : Nat
  avail : List Name
  threads : Nat → Slots
  policy : Policy
  ixs : Nat → IxObj
  parts : Nat → Part
  ovW : Nat → Option Val
  ovC : Nat → Option Val
  parents : Nat → Val
  app : A
  trace : List Event

/-- Which implementation is in use (`PURE_PYTHON` or the C extensions). -/
inductive Impl where
  | py
  | c
  deriving DecidableEq, Repr

/-- The outside world: everything that is not code of the package.

* `objType o` — the name of `type(o)`; `metaType t` — of `type(t)` for a class `t`;
* `isExc` — `isinstance(v, Exception)`; `isInst` — builtin `isinstance(v, cls)`;
* `truth` — truth value of an application object;
* `strSub` — the object is an instance of a subclass of `str`;
* `addr` — the address of an object as printed by `%p`;
* `isLoc` — `ILocation.providedBy(v)`;
* `apply` — what running an operation on an unproxied value does.  It is an arbitrary
  function of the state and may change all of it. -/
structure World (A : Type) where
  objType : Nat → String
  metaType : String → String
  isExc : Val → Bool
  isInst : Val → String → Bool
  truth : Val → Bool
  strSub : Val → Bool
  addr : Val → String
  isLoc : Val → Bool
  apply : RawOp → St A → Res Val × St A

/-- Everything a piece of code runs in: the world, the implementation, the identifier of the
current thread, fuel for `selectChecker`'s loop, and how deep `hasattr` on a proxy is followed
into the proxy implementation (see `hasattrD` in `Proxy.lean`). -/
structure Ctx (A : Type) where
  W : World A
  impl : Impl
  tid : Nat
  fuel : Nat
  depth : Nat

/-- Computations: state changes persist when an exception is raised. -/
def M (A : Type) (α : Type) : Type := St A → Res α × St A

namespace M
variable {A α β : Type}

protected def pure (a : α) : M A α := fun s => (.ok a, s)

protected def bind (x : M A α) (f : α → M A β) : M A β := fun s =>
  match x s with
  | (.ok a, s') => f a s'
  | (.err e, s') => (.err e, s')
  | (.diverge, s') => (.diverge, s')

instance : Monad (M A) where
  pure := M.pure
  bind := M.bind

/-- Read the state. -/
def get : M A (St A) := fun s => (.ok s, s)

/-- Change the state. -/
def modify (f : St A → St A) : M A Unit := fun s => (.ok (), f s)

/-- `raise e`. -/
def throw (e : Exn) : M A α := fun s => (.err e, s)

/-- A loop that never ends. -/
def diverge : M A α := fun s => (.diverge, s)

/-- `try: x except <e with p e>: h e`. -/
def tryCatch (x : M A α) (p : Exn → Bool) (h : Exn → M A α) : M A α := fun s =>
  match x s with
  | (.ok a, s') => (.ok a, s')
  | (.err e, s') => if p e then h e s' else (.err e, s')
  | (.diverge, s') => (.diverge, s')

/-- `try: x; finally: f` with an `f` that does not raise. -/
def finally' (x : M A α) (f : St A → St A) : M A α := fun s =>
  match x s with
  | (.diverge, s') => (.diverge, s')
  | (r, s') => (r, f s')

end M

/-- Carry out an operation on an unproxied value for the user of a proxy. -/
def perform {A : Type} (X : Ctx A) (r : RawOp) : M A Val := fun s =>
  let s1 := { s with trace := s.trace ++ [.performed r] }
  let out := X.W.apply r s1
  (out.1, { out.2 with trace := s1.trace })

/-- Carry out an operation as part of the package's own decisions. -/
def probe {A : Type} (X : Ctx A) (r : RawOp) : M A Val := fun s =>
  let s1 := { s with trace := s.trace ++ [.probed r] }
  let out := X.W.apply r s1
  (out.1, { out.2 with trace := s1.trace })

/-- `type(v).__name__` as a registry key; classes are typed by their metaclass, modules are
`ModuleType`, interactions and checkers have their own (unregistered) types. -/
def typeOf {A : Type} (W : World A) : Val → String
  | .none => "NoneType"
  | .notImpl => "NotImplementedType"
  | .bool _ => "bool"
  | .int _ => "int"
  | .str _ _ => "str"
  | .obj o => W.objType o
  | .type t => W.metaType t
  | .module _ => "module"
  | .fn _ => "function"
  | .noProxy => "object"
  | .ix _ => "SecurityPolicy"
  | .checker .. => "Checker"
  | .combined .. => "CombinedChecker"
  | .deco _ cls _ => cls
  | .proxy .. => "Proxy"

/-- `bool(v)`. -/
def truthy {A : Type} (W : World A) : Val → Bool
  | .none => false
  | .bool b => b
  | .int n => n != 0
  | .str _ s => s != ""
  | .notImpl | .noProxy | .type _ | .module _ | .fn _ | .ix _ | .checker .. | .combined .. => true
  | v => W.truth v

end ZS
