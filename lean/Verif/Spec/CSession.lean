import Verif.Spec.Slots
import Verif.Spec.Deploy

/-!
# From the configuration file to the compiled functions

Untrusted code holding pointers works with the compiled proxies: the interpreter takes the function from the
slot of the finished type and calls it.
-/

namespace ZS.CM
open ZS.Spec
variable {A : Type} {β : Type}

/-- A state of the memory of the machine, of the package and its surroundings, and the objects that
untrusted code holds. -/
abbrev Stage (A : Type) := Mem × St A × List Nat

/-- The values are among the objects held. -/
def HeldVals (I : Interp A) (held : List Nat) (l : List Val) : Prop := ∀ v ∈ l, ∃ o ∈ held, I.val o = v

/-- A step: the interpreter performs an operation on a proxy by calling the function that the finished type has in the
slot — over any base type — and all calls made by the function are answered as the surroundings answer them; or untrusted code
comes by a constant; or something else happens that changes no declarations, after which the memory still
represents the state. -/
inductive Steps (E : Env) (I : Interp A) (base : TSlot → Option β) : Stage A → Stage A → Prop
  | object {m m' s s' held p op sl args f fuel x r l} : p ∈ held → IsProxy (I.val p) → Asks E I p op sl args →
      HeldVals I held (opArgs op) → fuel ≤ I.X.fuel → ready proxyOwn base sl = some (.inl f) → runObj E fuel f args = some x →
      x m = .ok r m' → m'.asked = l.reverse ++ m.asked → Explains E I s l s' →
      Steps E I base (m, s, held) (m', s', r.toList ++ held)
  | int {m m' s s' held p op sl args f x i l} : p ∈ held → IsProxy (I.val p) → AsksInt I p op sl args →
      HeldVals I held (opArgs op) → ready proxyOwn base sl = some (.inl f) → runInt E f args = some x →
      x m = .ok i m' → m'.asked = l.reverse ++ m.asked → Explains E I s l s' →
      Steps E I base (m, s, held) (m', s', held)
  | method {m m' s s' held p f fuel x r l} : p ∈ held → IsProxy (I.val p) →
      proxyMethods.lookup "__length_hint__" = some f → runObj E fuel f (.one p) = some x →
      x m = .ok r m' → m'.asked = l.reverse ++ m.asked → Explains E I s l s' →
      Steps E I base (m, s, held) (m', s', r.toList ++ held)
  | constant {m s held o} : Basic (I.val o) → Steps E I base (m, s, held) (m, s, o :: held)
  | elsewhere {m m' s s' held} : protection s' = protection s → Fields E I m' s' →
      Steps E I base (m, s, held) (m', s', held)

/-- Any number of steps. -/
inductive Sessions (E : Env) (I : Interp A) (base : TSlot → Option β) : Stage A → Stage A → Prop
  | nil {a} : Sessions E I base a a
  | cons {a b c} : Sessions E I base a b → Steps E I base b c → Sessions E I base a c

/-- Whatever the calls in the list carry out for the user of the proxy, the code being in state `s` when it was
called: the declarations and the interaction permit it. -/
def OnlyPermitted (E : Env) (I : Interp A) (σ : Store) (s : St A) (p : Nat) (op : POp) (l : List Ask) : Prop :=
  ∀ pre k post, l = pre ++ k :: post → ∀ s', Explains E I s pre s' → ∀ u, k.fn = .user u →
    ∃ ro, rawOf E I u k.args = some ro ∧ Permitted I.X σ s (I.val p) op ro

/-- The operation is among what the calls carry out for the user. -/
def CarriedOut (E : Env) (I : Interp A) (ro : RawOp) (l : List Ask) : Prop :=
  ∃ k ∈ l, ∃ u, k.fn = .user u ∧ rawOf E I u k.args = some ro

end ZS.CM
