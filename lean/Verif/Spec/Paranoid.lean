import Verif.Spec.Checks
import Verif.Model.Checker

/-!
# Specification: what an ordinary user may do under the paranoid policy
-/

namespace ZS.Spec
variable {A : Type}

/-- The thread is in an interaction of the paranoid policy with at least one participant who is not
the system user. -/
def Guest (X : Ctx A) (s : St A) : Prop :=
  ∃ i, (s.threads X.tid).interaction = some (.ix i) ∧ (s.ixs i).permissive = false ∧
    ∃ p ∈ (s.ixs i).participations, (s.parts p).principal ≠ .system

/-- Some checker of the chain declares the name public in the relevant dictionary or, for reading, has
no declaration for a name available by default. -/
def Open (impl : Impl) (s : St A) (k : CheckKind) : Val → Name → Prop
  | .checker _ g st, n =>
    match k with
    | .setattr => Declared impl (s.dicts st) n publicV
    | _ => Declared impl (s.dicts g) n publicV ∨ (Undeclared impl (s.dicts g) n ∧ Available impl s.avail n)
  | .combined _ g st c2, n =>
    (match k with
    | .setattr => Declared impl (s.dicts st) n publicV
    | _ => Declared impl (s.dicts g) n publicV ∨ (Undeclared impl (s.dicts g) n ∧ Available impl s.avail n))
    ∨ Open impl s k c2 n
  | _, _ => False

end ZS.Spec
