import Verif.Model.Gc

/-!
# What garbage collection must and must not do

References and reachability, without counters.
-/

namespace ZS.Spec
open ZS.Gc

/-- The references an object owns. -/
def refs : Body → List Nat
  | .proxy o c => o.toList ++ c.toList
  | .checker g s => g.toList ++ s.toList
  | .fixed l => l
  | .other l => l

/-- `i` is an object with a reference to `o`. -/
def RefersTo (h : Heap) (i o : Nat) : Prop := ∃ b, (i, b) ∈ h.objs ∧ o ∈ refs b

/-- Somebody outside has a reference to the object, or has forgotten about one. -/
def Rooted (h : Heap) (o : Nat) : Prop := 0 < h.ext o ∨ 0 < h.lost o

/-- The object can be reached from outside. -/
inductive Reachable (h : Heap) : Nat → Prop
  | root {o} : Rooted h o → Reachable h o
  | step {i o} : Reachable h i → RefersTo h i o → Reachable h o

/-- The object can be reached from outside or from an object that is not examined. -/
inductive Needed (h : Heap) (among : List Nat) : Nat → Prop
  | root {o} : Rooted h o → Needed h among o
  | old {i o} : i ∉ among → RefersTo h i o → Needed h among o
  | step {i o} : Needed h among i → RefersTo h i o → Needed h among o

/-- The heap is what some history leaves. -/
def Arises (h : Heap) : Prop := ∃ ops, h = run ops empty

end ZS.Spec
