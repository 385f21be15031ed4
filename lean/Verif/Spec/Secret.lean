import Verif.Spec.Confine

/-!
# Specification of noninterference

Two worlds that differ only in secrets, and programs that try to tell them apart.
-/

namespace ZS.Spec
variable {A : Type}

/-- The questions the package itself asks of application code while a proxy is used: the checker of
an object's own, iterability, the class of an object and the names of what is given as the class for
the default text, the decision of a policy, checker factories, and foreign checkers. -/
inductive Internal (W : World A) : RawOp → Prop
  | ownChecker {v} : Internal W (.getattr v "__Security_checker__")
  | iterable {v} : Internal W (.getattr v "__iter__")
  | theClass {v} : Internal W (.getattr v "__class__")
  | className {v s k s' n} : W.apply (.getattr v "__class__") s = (.ok k, s') → n = "__name__" ∨ n = "__module__" →
      Internal W (.getattr k n)
  | policy {i perm o} : Internal W (.method i "checkPermission" [perm, o])
  | factory {f o} : Internal W (.call f [o])
  | foreignCheck {c m o n} : m = "check" ∨ m = "check_getattr" ∨ m = "check_setattr" → Internal W (.method c m [o, n])
  | foreignProxy {c v} : Internal W (.method c "proxy" [v])

/-- The same world, except for what operations on unproxied values do. -/
def alter (X : Ctx A) (f : RawOp → St A → Res Val × St A) : Ctx A := { X with W := { X.W with apply := f } }

/-- What application code does differs in operations with `S` only. -/
def DifferIn (S : RawOp → Prop) (X : Ctx A) (f : RawOp → St A → Res Val × St A) : Prop :=
  ∀ r s, ¬ S r → f r s = X.W.apply r s

/-- What a program does next: use a value, or let others change the state. -/
inductive Act (A : Type) where
  | use (v : Val) (op : POp)
  | wait (f : St A → St A)

/-- A program chooses what to do from all it has seen so far. -/
abbrev Program (A : Type) := List (Res Val) → Option (Act A)

/-- Running a program for at most `n` steps: everything it sees, and the state at the end. -/
def observe (X : Ctx A) (k : Program A) : Nat → List (Res Val) → St A → List (Res Val) × St A
  | 0, seen, s => (seen, s)
  | n + 1, seen, s =>
    match k seen with
    | none => (seen, s)
    | some (.wait f) => observe X k n (seen ++ [.ok .none]) (f s)
    | some (.use v op) =>
      match pop X v op s with
      | (.diverge, s') => (seen ++ [.diverge], s')
      | (r, s') => observe X k n (seen ++ [r]) s'

/-- `P` holds whenever the running program uses a value. -/
def Throughout (P : List (Res Val) → Val → POp → St A → Prop) (X : Ctx A) (k : Program A) :
    Nat → List (Res Val) → St A → Prop
  | 0, _, _ => True
  | n + 1, seen, s =>
    match k seen with
    | none => True
    | some (.wait f) => Throughout P X k n (seen ++ [.ok .none]) (f s)
    | some (.use v op) => P seen v op s ∧
      match pop X v op s with
      | (.diverge, _) => True
      | (r, s') => Throughout P X k n (seen ++ [r]) s'

/-- Attributes and special methods named by `N`, of any object. -/
def Named (N : Name → Prop) : RawOp → Prop
  | .getattr _ n | .baseGetattr _ n | .setattr _ n _ | .delattr _ n | .special n _ _ | .inplace n _ _ => N n
  | _ => False

/-- The thread has no interaction, or one of the restrictive built-in policy in which an ordinary user
takes part. -/
def GrantsNothing (tid : Nat) (s : St A) : Prop :=
  (s.threads tid).interaction = none ∨
    ∃ i, (s.threads tid).interaction = some (.ix i) ∧ (s.ixs i).permissive = false ∧
      ∃ p ∈ (s.ixs i).participations, (s.parts p).principal ≠ .system

/-- The names are not available by default, and nobody has declared them, unless with a permission
that is not public while the interaction grants nothing. -/
def Hidden (N : Name → Prop) (tid : Nat) (s : St A) : Prop :=
  ∀ n, N n → n ∉ s.avail ∧ ∀ d p, (s.dicts d).get? n = some p → p ≠ publicV ∧ GrantsNothing tid s

/-- Names that are used, or asked about, without a permission for them.  A pure-Python proxy gives
away more: some attributes, the length hint, and the plain operator in the place of an in-place
operator. -/
def openNames : Impl → List Name
  | .c => ["__Security_checker__", "__iter__", "__class__", "__name__", "__module__", "__hash__", "__bool__"]
  | .py => ["__Security_checker__", "__iter__", "__class__", "__name__", "__module__", "__hash__", "__bool__",
      "__cmp__", "__lt__", "__le__", "__eq__", "__ne__", "__ge__", "__gt__", "__length_hint__",
      "__add__", "__sub__", "__mul__", "__mod__", "__pow__", "__lshift__", "__rshift__", "__and__", "__xor__", "__or__",
      "__floordiv__", "__truediv__"]

/-- The proxy whose checker decides about the operation has a checker of the package. -/
def OrdinaryActor (impl : Impl) (v : Val) (op : POp) (s : St A) : Prop :=
  ∀ q, need impl v op = some q → ∀ w c, current impl s q.actor = some (w, c) → Ordinary c

end ZS.Spec
