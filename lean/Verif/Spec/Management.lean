import Verif.Model.State

/-!
# Specification of interaction management

A private two-slot machine per thread, independent of how management.py stores things.
-/

namespace ZS.Spec

/-- Calls of the management API and of interactions, as made by a thread. -/
inductive MCall where
  | new (ps : List Nat)
  | end_
  | restore
  | query
  | get
  | setPolicy (p : Policy)
  | getPolicy
  | clearPolicy
  | check (perm obj ix : Val)
  | add (i p : Nat)
  | remove (i p : Nat)
  deriving DecidableEq

/-- No interaction: never started, ended, or a policy that answered `None`. -/
def Idle (cur : Option Val) : Prop := cur = none ∨ cur = some .none

/-- One step of the machine: slots (current, saved), call, outcome, slots.  `ix` in `newOk` is the
interaction object the policy returned. -/
inductive Step : Option Val × Option Val → MCall → Res Val → Option Val × Option Val → Prop
  | newBusy {v sv ps} : v ≠ .none → Step (some v, sv) (.new ps) (.err .existingInteraction) (some v, sv)
  | newOk {cur sv ps} (ix : Val) : Idle cur → Step (cur, sv) (.new ps) (.ok ix) (some ix, sv)
  | newFails {cur sv ps e} : Idle cur → Step (cur, sv) (.new ps) (.err e) (cur, sv)
  | newHangs {cur sv ps} : Idle cur → Step (cur, sv) (.new ps) .diverge (cur, sv)
  | end_ {v sv} : Step (some v, sv) .end_ (.ok .none) (none, some v)
  | endNone {sv} : Step (none, sv) .end_ (.ok .none) (none, none)
  | restore {cur v} : Step (cur, some v) .restore (.ok .none) (some v, some v)
  | restoreNone {cur} : Step (cur, none) .restore (.ok .none) (none, none)
  | query {v sv} : Step (some v, sv) .query (.ok v) (some v, sv)
  | queryNone {sv} : Step (none, sv) .query (.ok .none) (none, sv)
  | get {v sv} : Step (some v, sv) .get (.ok v) (some v, sv)
  | getNone {sv} : Step (none, sv) .get (.err .noInteraction) (none, sv)
  | checkPublic {sl p o i} : p = publicV ∨ p = .none → Step sl (.check p o i) (.ok (.bool true)) sl
  | checkNone {sv p o} : p ≠ publicV → p ≠ .none →
      Step (none, sv) (.check p o .none) (.err .noInteraction) (none, sv)
  | checkCurrent {v sv p o r} : p ≠ publicV → p ≠ .none → Step (some v, sv) (.check p o .none) r (some v, sv)
  | checkGiven {sl p o i r} : p ≠ publicV → p ≠ .none → i ≠ .none → Step sl (.check p o i) r sl
  | setPolicy {sl p r} : Step sl (.setPolicy p) r sl
  | getPolicy {sl r} : Step sl .getPolicy r sl
  | clearPolicy {sl r} : Step sl .clearPolicy r sl
  | add {sl i p r} : Step sl (.add i p) r sl
  | remove {sl i p r} : Step sl (.remove i p) r sl

/-- A run of the machine. -/
inductive Runs : Option Val × Option Val → List (MCall × Res Val) → Option Val × Option Val → Prop
  | nil {sl} : Runs sl [] sl
  | cons {sl sl1 sl2 c r t} : Step sl c r sl1 → Runs sl1 t sl2 → Runs sl ((c, r) :: t) sl2

end ZS.Spec
