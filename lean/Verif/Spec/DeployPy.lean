import Verif.Spec.Deploy
import Verif.Spec.Mediation

/-!
# From the configuration file to the operation, with pure-Python proxies

The counterpart of `Spec/Deploy` for the proxies of proxy.py, whose two slots can be assigned.
-/

namespace ZS.Spec
variable {A : Type}

/-- No proxy has had a slot assigned since it was made. -/
def Untouched (s : St A) : Prop := ∀ id, s.ovW id = none ∧ s.ovC id = none

/-- The operations that neither assign a slot of the proxy nor read one from a frame whose `self` is
the proxy. -/
def Careful : POp → Prop
  | .inplace .. => False
  | .setattr n _ => n ≠ "_wrapped" ∧ n ≠ "_checker"
  | .getattr n inside => inside = true → n ≠ "_wrapped" ∧ n ≠ "_checker"
  | _ => True

/-- In addition application code assigns no slot of a proxy. -/
structure ReliesPy (W : World A) (s0 : St A) : Prop extends Relies W s0 where
  slots : ∀ r s, (W.apply r s).2.ovW = s.ovW ∧ (W.apply r s).2.ovC = s.ovC

/-- A step of untrusted code that is careful, or of anybody else: anything may happen but changes of
the declarations and assignments to slots of proxies. -/
inductive UsesPy (X : Ctx A) : St A × List Val → St A × List Val → Prop
  | returns {s held p op v s'} : p ∈ held → Careful op → (∀ a ∈ opArgs op, a ∈ held) → pop X p op s = (.ok v, s') →
      UsesPy X (s, held) (s', v :: held)
  | raises {s held p op e s'} : p ∈ held → Careful op → (∀ a ∈ opArgs op, a ∈ held) → pop X p op s = (.err e, s') →
      UsesPy X (s, held) (s', held)
  | constant {s held v} : Basic v → UsesPy X (s, held) (s, v :: held)
  | elsewhere {s held s'} : protection s' = protection s → s'.ovW = s.ovW → s'.ovC = s.ovC → UsesPy X (s, held) (s', held)

/-- Any number of steps. -/
inductive SessionPy (X : Ctx A) : St A × List Val → St A × List Val → Prop
  | nil {a} : SessionPy X a a
  | cons {a b c} : SessionPy X a b → UsesPy X b c → SessionPy X a c

/-- Looking up `__iter__` on the object raises an AttributeError. -/
def LacksIter (W : World A) (s : St A) (w : Val) : Prop :=
  ∃ e s', e.isAttr = true
    ∧ W.apply (.getattr w "__iter__") { s with trace := s.trace ++ [.probed (.getattr w "__iter__")] } = (.err e, s')

/-- The declarations `σ` and the interaction of the current thread permit the name on the object.  A
permission of `None` is no declaration for the pure-Python checker. -/
inductive PermitsPy (X : Ctx A) (σ : Store) (s : St A) (w : Val) (write : Bool) (n : Name) : Prop
  | isPublic : σ (keyOf X.W w) write n = some publicV → PermitsPy X σ s w write n
  | granted {perm ix s'} : σ (keyOf X.W w) write n = some perm → perm ≠ .none → perm ≠ publicV →
      (s.threads X.tid).interaction = some ix → IxAnswer X.W s perm w ix (.ok true) s' → PermitsPy X σ s w write n
  | byDefault : write = false → (∀ p, σ (keyOf X.W w) false n = some p → p = .none) → n ∈ availableByDefault →
      PermitsPy X σ s w write n
  | noIter : write = false → (∀ p, σ (keyOf X.W w) false n = some p → p = .none) → n = "__iter__" →
      LacksIter X.W s w → PermitsPy X σ s w write n

/-- `ro` is what the operation `op` on the proxy `p` stands for, carried out on the wrapped object of
the proxy acting in it, and permitted by the declarations and the interaction; or it is one of the
unchecked operations. -/
def PermittedPy (X : Ctx A) (σ : Store) (s : St A) (p : Val) (op : POp) (ro : RawOp) : Prop :=
  match need .py p op with
  | some q => ∃ i w c, q.actor = .proxy i w c ∧ Carries .py op q w ro ∧ PermitsPy X σ s w (isWrite q.kind) q.name
  | none => ∃ i w c, p = .proxy i w c ∧ Free .py w op ro

/-- The checked operations of a pure-Python proxy that carry out exactly one operation when the check
grants: in-place operators use two, the private slots are no attributes of the object, and a modulus
that is a proxy is not supported unless another operand is one. -/
def Direct : POp → Prop
  | .inplace .. => False
  | .getattr n _ | .setattr n _ | .delattr n => n ≠ "_wrapped" ∧ n ≠ "_checker"
  | .pow3 x y => x.isProxy = true ∨ y.isProxy = true
  | _ => True

end ZS.Spec
