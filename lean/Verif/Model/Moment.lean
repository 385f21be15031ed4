import Verif.Model.Checker

/-!
# Checks while other threads change declarations

A check reads shared data several times.  Each access is made at a moment of its own: access number `t`
sees the data `σ t`, and `σ` is any sequence, so that between two accesses other threads may do anything.
Foreign checkers, whose accesses are unknown, are not covered.
-/

namespace ZS

/-- The shared data a check of one name on one object may look at. -/
structure Moment where
  /-- the permission dictionaries -/
  dicts : Nat → PyDict Name Val
  /-- `_available_by_default` -/
  avail : List Name
  /-- what the interaction answers if asked about a permission on the object -/
  answer : Val → Res Bool
  /-- what `hasattr(object, "__iter__")` gives -/
  iter : Res Bool

/-- The permission found in a dictionary (checker.py:262; _zope_security_checker.c:146). -/
def lookupI (impl : Impl) (d : PyDict Name Val) (n : Name) : Option Val :=
  match impl with
  | .py => lookupPy d n
  | .c => d.get? n

/-- Looking up the permission, and the number of the next access.  `CheckerPy.check_setattr` first looks whether there are
any permissions (checker.py:243-246). -/
def lookT (impl : Impl) (write : Bool) (σ : Nat → Moment) (t g : Nat) (n : Name) : Option Val × Nat :=
  if write = true ∧ impl = .py then
    if ((σ t).dicts g).isEmpty then (none, t + 1) else (lookupI impl ((σ (t + 1)).dicts g) n, t + 2)
  else (lookupI impl ((σ t).dicts g) n, t + 1)

/-- Asking the interaction (checker.py:251-254, 266-269; _zope_security_checker.c:100-122). -/
def askT (σ : Nat → Moment) (t : Nat) (p o : Val) (n : Name) : Res Unit × Nat :=
  match (σ t).answer p with
  | .ok true => (.ok (), t + 1)
  | .ok false => (.err (.unauthorized o n p), t + 1)
  | .err e => (.err e, t + 1)
  | .diverge => (.diverge, t + 1)

/-- `Checker.check` and `Checker.check_setattr` (checker.py:241-278; _zope_security_checker.c:139-198, 219-254), beginning with access
number `t`. -/
def plainT (impl : Impl) (write : Bool) (σ : Nat → Moment) (t g : Nat) (o : Val) (n : Name) : Res Unit × Nat :=
  match lookT impl write σ t g n with
  | (some p, t1) => if p = publicV then (.ok (), t1) else askT σ t1 p o n
  | (none, t1) =>
    if write then (.err (.forbidden n o), t1)
    else if impl = .c ∧ isDunder n = false then (.err (.forbidden n o), t1)
    else if n ∈ (σ t1).avail then (.ok (), t1 + 1)
    else if n ≠ "__iter__" then (.err (.forbidden n o), t1 + 1)
    else match (σ (t1 + 1)).iter with
      | .ok true => (.err (.forbidden n o), t1 + 2)
      | .ok false => (.ok (), t1 + 2)
      | .err e => (.err e, t1 + 2)
      | .diverge => (.diverge, t1 + 2)

/-- The same for a chain of combined checkers (checker.py:563-588). -/
def chainT (impl : Impl) (write : Bool) (σ : Nat → Moment) : Nat → Val → Val → Name → Res Unit × Nat
  | t, .checker _ g st, o, n => plainT impl write σ t (if write then st else g) o n
  | t, .combined _ g st c2, o, n =>
    match plainT impl write σ t (if write then st else g) o n with
    | (.err e, t1) =>
      if e.isForbidden then chainT impl write σ t1 c2 o n
      else if e.isUnauthorized then
        match chainT impl write σ t1 c2 o n with
        | (.err e2, t2) => if e2.isForbidden then (.err e, t2) else (.err e2, t2)
        | r => r
      else (.err e, t1)
    | r => r
  | t, _, _, _ => (.diverge, t)

end ZS
