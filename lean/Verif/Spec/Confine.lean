import Verif.Spec.Mediation
import Verif.Spec.Select

/-!
# Specification of confinement

Untrusted code holds some values and applies operations to the proxies among them.
-/

namespace ZS.Spec
variable {A : Type}

/-- Values of the basic types that untrusted code can make up itself. -/
def Basic (v : Val) : Prop :=
  v = .none ∨ v = .notImpl ∨ (∃ b, v = .bool b) ∨ (∃ n, v = .int n) ∨ ∃ a t, v = .str a t

/-- The registry decided, by a selection that ended in state `t`, not to protect the value. -/
def Unprotected (X : Ctx A) (v : Val) (t : St A) : Prop := ∃ s, SelectSpec X v s (.ok .none) t

/-- The value is what a `__length_hint__` method returned in state `t`. -/
def LengthHint (X : Ctx A) (v : Val) (t : St A) : Prop :=
  ∃ r s s', X.W.apply r s = (.ok v, s') ∧ t = { s' with trace := s.trace } ∧
    s.trace.getLast? = some (.performed r) ∧
    ((∃ w, r = .method w "__length_hint__" []) ∨
      ∃ h w s1 s2, r = .call h [] ∧ X.W.apply (.getattr w "__length_hint__") s1 = (.ok h, s2))

/-- A security proxy whose checker is one of the package's. -/
def GoodProxy (v : Val) : Prop := ∃ i w c, v = .proxy i w c ∧ IsChecker c

/-- What untrusted code may have obtained in state `t`: a security proxy, a value of a basic type,
a string of a subclass of `str`, a length hint, or something the registry declares unprotected. -/
def Safe (X : Ctx A) (v : Val) (t : St A) : Prop :=
  GoodProxy v ∨ (¬ IsProxy v ∧ (Basic v ∨ X.W.strSub v = true ∨ LengthHint X v t ∨ Unprotected X v t))

/-- The values given to an operation. -/
def opArgs : POp → List Val
  | .setattr _ v => [v]
  | .call args => args
  | .getitem k => [k]
  | .setitem k v => [k, v]
  | .delitem k => [k]
  | .contains v => [v]
  | .binL _ o | .binR _ o | .inplace _ o | .compare _ o => [o]
  | .pow y m => [y, m]
  | .rpow x m => [x, m]
  | .pow3 x y => [x, y]
  | _ => []

/-- What a program using pure-Python proxies has to avoid for the claim to hold: rich comparisons,
assigning `_checker` anything but a checker of the package, and reading the private slots from a
frame whose `self` is the proxy. -/
def Avoids (impl : Impl) (op : POp) : Prop :=
  impl = .py → (∀ b o, op ≠ .compare b o) ∧ (∀ v, op = .setattr "_checker" v → IsChecker v)
    ∧ op ≠ .getattr "_wrapped" true ∧ op ≠ .getattr "_checker" true

/-- Proxies occurring in the value (as itself, or inside decorators) have checkers of the package. -/
def Guarded : Val → Prop
  | .proxy _ _ c => IsChecker c
  | .deco _ _ v => Guarded v
  | _ => True

/-- Nobody has put anything but a checker of the package into a pure-Python proxy. -/
def SlotsOK (impl : Impl) (s : St A) : Prop := impl = .py → ∀ i k, s.ovC i = some k → IsChecker k

/-- The application uses the package's own checkers only. -/
structure OwnCheckers (X : Ctx A) : Prop where
  results : ∀ r s v s', X.W.apply r s = (.ok v, s') → Guarded v
  own : ∀ v s k s', X.W.apply (.getattr v "__Security_checker__") s = (.ok k, s') → k = .none ∨ IsChecker k
  slots : ∀ r s, SlotsOK X.impl s → SlotsOK X.impl (X.W.apply r s).2

/-- One step of untrusted code that has obtained values (each recorded with the state in which it
got hold of it), or of anybody else. -/
inductive Move (X : Ctx A) : St A × List (Val × St A) → St A × List (Val × St A) → Prop
  | returns {s held p op v s'} : p ∈ held.map Prod.fst → (∀ a ∈ opArgs op, a ∈ held.map Prod.fst) →
      Avoids X.impl op → pop X p op s = (.ok v, s') → Move X (s, held) (s', (v, s') :: held)
  | raises {s held p op e s'} : p ∈ held.map Prod.fst → (∀ a ∈ opArgs op, a ∈ held.map Prod.fst) →
      Avoids X.impl op → pop X p op s = (.err e, s') → Move X (s, held) (s', held)
  | constant {s held v} : Basic v → Move X (s, held) (s, (v, s) :: held)
  | elsewhere {s held s'} : SlotsOK X.impl s' → Move X (s, held) (s', held)

/-- Any number of steps. -/
inductive Attack (X : Ctx A) : St A × List (Val × St A) → St A × List (Val × St A) → Prop
  | nil {a} : Attack X a a
  | cons {a b c} : Attack X a b → Move X b c → Attack X a c

end ZS.Spec
