import Verif.Model.Registry

/-!
# Registration by several threads at once

Small-step models of `defineChecker` and `protectName`.  A step is one access to a shared
dictionary, which the interpreter carries out without interruption; between two steps of a thread any
number of steps of other threads may happen.
-/

namespace ZS

/-- Where a thread is in `defineChecker(type_, checker)` (checker.py:484-486), `k` being the type. -/
inductive DefPc where
  /-- not calling it -/
  | idle
  /-- before `if type_ in _checkers` (checker.py:484) -/
  | start (k : Key) (c : Val)
  /-- before `_checkers[type_] = checker` (checker.py:486) -/
  | tested (k : Key) (c : Val)
  /-- returned -/
  | returned (k : Key) (c : Val)
  /-- `DuplicationError` raised (checker.py:485) -/
  | duplication (k : Key) (c : Val)
  deriving DecidableEq

/-- The registry and all threads. -/
structure DefCfg where
  reg : PyDict Key Val
  pc : Nat → DefPc

/-- Thread `i` is now at `p`. -/
def setPc {P : Type} (pc : Nat → P) (i : Nat) (p : P) : Nat → P := fun j => if j = i then p else pc j

/-- One step of thread `i`, if it has one (checker.py:484-486). -/
def defStep (c : DefCfg) (i : Nat) : Option DefCfg :=
  match c.pc i with
  | .start k v => if c.reg.mem k then some { c with pc := setPc c.pc i (.duplication k v) }
      else some { c with pc := setPc c.pc i (.tested k v) }
  | .tested k v => some { reg := c.reg.set k v, pc := setPc c.pc i (.returned k v) }
  | _ => none

/-- A schedule: the threads taking the steps, in order; a thread without a step does nothing. -/
def defRun (c : DefCfg) : List Nat → DefCfg
  | [] => c
  | i :: r => defRun ((defStep c i).getD c) r

/-- Where a thread is in `protectName(class_, name, permission)` (protectclass.py:24-39), the permission
being translated already. -/
inductive ProtPc where
  | idle
  /-- before `getCheckerForInstancesOf(class_)` (protectclass.py:27) -/
  | start (n : Name) (p : Val)
  /-- `checker = Checker({}, {})` made; before the test of `defineChecker` (protectclass.py:29-30, checker.py:484) -/
  | testing (n : Name) (p : Val) (d : Nat)
  /-- before the store of `defineChecker` (checker.py:486) -/
  | storing (n : Name) (p : Val) (d : Nat)
  /-- before `protections[name] = permission` (protectclass.py:39) -/
  | writing (n : Name) (p : Val) (d : Nat)
  /-- returned -/
  | returned (n : Name) (p : Val)
  /-- `DuplicationError` raised -/
  | duplication (n : Name) (p : Val)
  deriving DecidableEq

/-- One class: the read dictionary of its checker, if it has one; all dictionaries; all threads. -/
structure ProtCfg where
  reg : Option Nat
  dicts : Nat → PyDict Name Val
  next : Nat
  pc : Nat → ProtPc

/-- One step of thread `i` (protectclass.py:24-39).  Making a new checker touches nothing shared and is
part of the step before. -/
def protStep (c : ProtCfg) (i : Nat) : Option ProtCfg :=
  match c.pc i with
  | .start n p =>
    match c.reg with
    | some d => some { c with pc := setPc c.pc i (.writing n p d) }
    | none => some { c with
        dicts := fun k => if k = c.next then [] else c.dicts k
        next := c.next + 1
        pc := setPc c.pc i (.testing n p c.next) }
  | .testing n p d =>
    match c.reg with
    | some _ => some { c with pc := setPc c.pc i (.duplication n p) }
    | none => some { c with pc := setPc c.pc i (.storing n p d) }
  | .storing n p d => some { c with reg := some d, pc := setPc c.pc i (.writing n p d) }
  | .writing n p d => some { c with
      dicts := fun k => if k = d then (c.dicts d).set n p else c.dicts k
      pc := setPc c.pc i (.returned n p) }
  | _ => none

/-- A schedule. -/
def protRun (c : ProtCfg) : List Nat → ProtCfg
  | [] => c
  | i :: r => protRun ((protStep c i).getD c) r

end ZS
