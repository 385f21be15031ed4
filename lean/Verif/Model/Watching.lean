import Verif.Model.Checker

/-!
# Watching checkers (checker.py:591-702)

The log is kept outside of the state, as the lines written.  Whether a checker object is a watching
one, and its verbosity, is given by a function: with `ZOPE_WATCH_CHECKERS` set all that are created
afterwards are (checker.py:692-702), while `_defaultChecker` of the C extension is not.
-/

namespace ZS
variable {A : Type}

/-- What a line says. -/
inductive Verdict where
  | alwaysAvailable
  | granted
  | unauthorized
  | forbidden
  deriving DecidableEq, Repr

/-- A line of the log. -/
structure Line where
  kind : CheckKind
  verdict : Verdict
  name : Name
  object : Val
  deriving DecidableEq, Repr

/-- A check that also writes lines. -/
def LM (A : Type) : Type := St A → (Res Unit × St A) × List Line

/-- Formatting a message with `%r` of the object runs its `repr`; the message is built before `_log`
looks at the verbosity (checker.py:606-608). -/
def reprOf (X : Ctx A) (o : Val) (s : St A) : Res Val × St A := X.W.apply (.special "__repr__" o []) s

/-- `self._log(f'... {object!r}', level)`, then `after`. -/
def logLine (X : Ctx A) (verbosity level : Int) (line : Line) (after : Res Unit) : LM A := fun s =>
  match reprOf X line.object s with
  | (.ok _, s1) => ((after, s1), if verbosity ≥ level then [line] else [])
  | (.err e, s1) => ((.err e, s1), [])
  | (.diverge, s1) => ((.diverge, s1), [])

/-- The `except` clauses (checker.py:620-627, 643-651, 662-669). -/
def logRefusal (X : Ctx A) (verbosity : Int) (k : CheckKind) (o : Val) (n : Name) (e : Exn) : LM A := fun s =>
  if e.isUnauthorized then logLine X verbosity 1 ⟨k, .unauthorized, n, o⟩ (.err e) s
  else if e.isForbidden then logLine X verbosity 1 ⟨k, .forbidden, n, o⟩ (.err e) s
  else ((.err e, s), [])

/-- What is written about a granted check (checker.py:613-619, 632-642, 657-661). -/
def grantVerdict (s : St A) (k : CheckKind) (n : Name) : Verdict :=
  match k with
  | .setattr => .granted
  | _ => if n ∈ s.avail then .alwaysAvailable else .granted

/-- `CheckerLoggingMixin.check`, `check_getattr` and `check_setattr` around the inherited check
(checker.py:610-669).  The line about a granted check is written inside the `try`, so that an
exception from `repr` there reaches the `except` clauses too. -/
def watched (X : Ctx A) (verbosity : Int) (k : CheckKind) (o : Val) (n : Name) (inner : M A Unit) : LM A := fun s =>
  match inner s with
  | (.ok (), s1) =>
    if verbosity > 1 then
      match logLine X verbosity 2 ⟨k, grantVerdict s1 k n, n, o⟩ (.ok ()) s1 with
      | ((.err e, s2), _) => logRefusal X verbosity k o n e s2
      | r => r
    else ((.ok (), s1), [])
  | (.err e, s1) => logRefusal X verbosity k o n e s1
  | (.diverge, s1) => ((.diverge, s1), [])

/-- `combine` with logs: `Checker.check(self, ...)` in `CombinedChecker.check` finds the rebound
global `Checker` (checker.py:563-588, 699-700). -/
def combineL (first second : LM A) : LM A := fun s =>
  match first s with
  | ((.err e, s1), l) =>
    if e.isForbidden then ((second s1).1, l ++ (second s1).2)
    else if e.isUnauthorized then
      match second s1 with
      | ((.err e2, s2), l2) => if e2.isForbidden then ((.err e, s2), l ++ l2) else ((.err e2, s2), l ++ l2)
      | ((r, s2), l2) => ((r, s2), l ++ l2)
    else ((.err e, s1), l)
  | r => r

/-- A check without log. -/
def silent (x : M A Unit) : LM A := fun s => (x s, [])

/-- One half of a checker, watched or not. -/
def half (X : Ctx A) (v : Option Int) (k : CheckKind) (o : Val) (n : Name) (inner : M A Unit) : LM A :=
  match v with
  | some v => watched X v k o n inner
  | none => silent inner

/-- The checking methods when checkers may be watching ones; `verb` gives the verbosity of those.
`check_getattr` of a combined checker is its `check` (checker.py:575), so its lines are those of
`check`. -/
def watchCheck (X : Ctx A) (H : Val → Name → M A Bool) (verb : Val → Option Int) : CheckKind → Val → Val → Name → LM A
  | k, .checker i g st, o, n =>
    match k with
    | .setattr => half X (verb (.checker i g st)) k o n (plainSetattr X st o n)
    | _ => half X (verb (.checker i g st)) k o n (plainCheck X H g o n)
  | k, .combined i g st c2, o, n =>
    match k with
    | .setattr => combineL (half X (verb (.combined i g st c2)) .setattr o n (plainSetattr X st o n)) (watchCheck X H verb .setattr c2 o n)
    | _ => combineL (half X (verb (.combined i g st c2)) .check o n (plainCheck X H g o n)) (watchCheck X H verb .check c2 o n)
  | k, v, o, n => silent (chkCheck X H k v o n)

end ZS
