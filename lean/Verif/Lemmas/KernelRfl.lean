import Lean.Elab.Tactic

/-!
# An equation whose two sides compute to the same

`kernel_rfl` closes `a = b` with `Eq.refl a` and leaves it to the kernel alone to see that `a` and `b` are the same.  The kernel checks it as it
checks every proof: nothing is added to what is trusted.
-/

namespace ZS

open Lean Elab Tactic Meta in
/-- Proves `a = b` by `Eq.refl a`, checked by the kernel. -/
elab "kernel_rfl" : tactic => do
  let g ← getMainGoal
  let t ← whnfR (← g.getType)
  match t.eq? with
  | some (α, a, _) =>
    let u ← getLevel α
    g.assign (mkApp2 (.const ``Eq.refl [u]) α a)
  | none => throwError "kernel_rfl: not an equation"

end ZS
