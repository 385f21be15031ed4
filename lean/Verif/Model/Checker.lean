import Verif.Model.Policy

/-!
# Checkers: `check`, `check_getattr`, `check_setattr`, `CombinedChecker`

Models checker.py:199-278, 531-588 and _zope_security_checker.c:60-254.  `H` is the `hasattr`
used by the `__iter__` rule.
-/

namespace ZS
variable {A : Type}

/-- `self.get_permissions.get(name)` with Python's convention that a missing name and a stored
`None` give the same answer (checker.py:232-234, 262). -/
def lookupPy (d : PyDict Name Val) (n : Name) : Option Val :=
  match d.get? n with
  | some .none => none
  | r => r

/-- `CheckerPy.check`, also `check_getattr` (checker.py:260-278). -/
def plainCheckPy (X : Ctx A) (H : Val → Name → M A Bool) (g : Nat) (o : Val) (n : Name) : M A Unit := do
  let s ← M.get
  match lookupPy (s.dicts g) n with
  | some p =>
    if p = publicV then pure ()
    else do
      let b ← askInteraction X p o
      if b then pure () else M.throw (.unauthorized o n p)
  | none =>
    if n ∈ s.avail then pure ()
    else if n ≠ "__iter__" then M.throw (.forbidden n o)
    else do
      let h ← H o n
      if h then M.throw (.forbidden n o) else pure ()

/-- `Checker_check_int` (_zope_security_checker.c:139-198). -/
def plainCheckC (X : Ctx A) (H : Val → Name → M A Bool) (g : Nat) (o : Val) (n : Name) : M A Unit := do
  let s ← M.get
  match (s.dicts g).get? n with
  | some p =>
    if p = publicV then pure ()
    else do
      let b ← askInteraction X p o
      if b then pure () else M.throw (.unauthorized o n p)
  | none =>
    if isDunder n then
      if n ∈ s.avail then pure ()
      else if n = "__iter__" then do
        let h ← H o n
        if h then M.throw (.forbidden n o) else pure ()
      else M.throw (.forbidden n o)
    else M.throw (.forbidden n o)

/-- `CheckerPy.check_setattr` (checker.py:241-258).  An empty dictionary is falsy, which makes
no difference. -/
def plainSetattrPy (X : Ctx A) (st : Nat) (o : Val) (n : Name) : M A Unit := do
  let s ← M.get
  match (if (s.dicts st).isEmpty then none else lookupPy (s.dicts st) n) with
  | some p =>
    if p = publicV then pure ()
    else do
      let b ← askInteraction X p o
      if b then pure () else M.throw (.unauthorized o n p)
  | none => M.throw (.forbidden n o)

/-- `Checker_check_setattr` (_zope_security_checker.c:219-254). -/
def plainSetattrC (X : Ctx A) (st : Nat) (o : Val) (n : Name) : M A Unit := do
  let s ← M.get
  match (s.dicts st).get? n with
  | some p =>
    if p = publicV then pure ()
    else do
      let b ← askInteraction X p o
      if b then pure () else M.throw (.unauthorized o n p)
  | none => M.throw (.forbidden n o)

/-- `Checker.check` of the implementation in use. -/
def plainCheck (X : Ctx A) (H : Val → Name → M A Bool) (g : Nat) (o : Val) (n : Name) : M A Unit :=
  match X.impl with
  | .py => plainCheckPy X H g o n
  | .c => plainCheckC X H g o n

/-- `Checker.check_setattr` of the implementation in use. -/
def plainSetattr (X : Ctx A) (st : Nat) (o : Val) (n : Name) : M A Unit :=
  match X.impl with
  | .py => plainSetattrPy X st o n
  | .c => plainSetattrC X st o n

/-- The `try` statement of `CombinedChecker.check` and `check_setattr` (checker.py:563-575,
577-588). -/
def combine (first second : M A Unit) : M A Unit := fun s =>
  match first s with
  | (.err e, s1) =>
    if e.isForbidden then second s1
    else if e.isUnauthorized then
      M.tryCatch second Exn.isForbidden (fun _ => M.throw e) s1
    else (.err e, s1)
  | r => r

/-- The three checking methods of `IChecker`. -/
inductive CheckKind where
  | check
  | getattr
  | setattr
  deriving DecidableEq, Repr

/-- Name of the checking method. -/
def CheckKind.methodName : CheckKind → Name
  | .check => "check"
  | .getattr => "check_getattr"
  | .setattr => "check_setattr"

/-- `c.check(o, n)`, `c.check_getattr(o, n)` or `c.check_setattr(o, n)` for any checker
object.  `check_getattr` is `check` for `Checker` and `CombinedChecker` (checker.py:278, 575), so
that the second half of a combined checker is always asked with `check` for reads
(checker.py:568-573).  A checker that is not a `Checker` instance is foreign code; in C a
foreign checker with a `__setitem__` is called through that slot instead (_proxy.c:128-153). -/
def chkCheck (X : Ctx A) (H : Val → Name → M A Bool) : CheckKind → Val → Val → Name → M A Unit
  | k, .checker _ g st, o, n =>
    match k with
    | .setattr => plainSetattr X st o n
    | _ => plainCheck X H g o n
  | k, .combined _ g st c2, o, n =>
    match k with
    | .setattr => combine (plainSetattr X st o n) (chkCheck X H .setattr c2 o n)
    | _ => combine (plainCheck X H g o n) (chkCheck X H .check c2 o n)
  | k, v, o, n => do
    let _ ← probe X (.method v k.methodName [o, .str 0 n])
    pure ()

/-- `checker.permission_id(name)` (checker.py:232-234, _zope_security_checker.c:60-78); `none`
is Python's `None`. -/
def permissionId (s : St A) : Val → Name → Option Val
  | .checker _ g _, n => lookupPy (s.dicts g) n
  | .combined _ g _ _, n => lookupPy (s.dicts g) n
  | _, _ => none

/-- `checker.setattr_permission_id(name)` (checker.py:236-239, _zope_security_checker.c:80-98). -/
def setattrPermissionId (s : St A) : Val → Name → Option Val
  | .checker _ _ st, n => lookupPy (s.dicts st) n
  | .combined _ _ st _, n => lookupPy (s.dicts st) n
  | _, _ => none

/-- A new permission dictionary. -/
def newDict (d : PyDict Name Val) : M A Nat := do
  let s ← M.get
  M.modify fun s => { s with nextId := s.nextId + 1, dicts := fun k => if k = s.nextId then d else s.dicts k }
  pure s.nextId

/-- `Checker(get, set)` on two dictionaries that already exist (checker.py:208-230; arguments
that are not dictionaries are not representable here). -/
def newChecker (g st : Nat) : M A Val := do
  let s ← M.get
  M.modify fun s => { s with nextId := s.nextId + 1 }
  pure (.checker s.nextId g st)

/-- `c.get_permissions` / `c.set_permissions`: the dictionaries of a `Checker`; anything else in
the registry (`NoProxy`, a factory) has no such attribute. -/
def checkerDicts : Val → Option (Nat × Nat)
  | .checker _ g st => some (g, st)
  | .combined _ g st _ => some (g, st)
  | _ => none

/-- `CombinedChecker(c1, c2)` (checker.py:555-561): the dictionaries of `c1` are shared by
reference; whatever else `c1` was (for instance a `CombinedChecker`) is not kept. -/
def newCombined (c1 c2 : Val) : M A Val :=
  match checkerDicts c1 with
  | some (g, st) => do
    let s ← M.get
    M.modify fun s => { s with nextId := s.nextId + 1 }
    pure (.combined s.nextId g st c2)
  | none => M.throw (.attributeError "get_permissions")

end ZS
