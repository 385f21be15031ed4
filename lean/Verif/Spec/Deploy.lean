import Verif.Spec.Confine
import Verif.Spec.Meta
import Verif.Spec.Checks
import Verif.Model.Initial

/-!
# From the configuration file to the operation

The package is imported, a configuration is carried out, and then untrusted code works with compiled
proxies.  What may be carried out for it is stated with the directives of the configuration only.
-/

namespace ZS.Spec
variable {A : Type}

/-- The declarations in force: the registry, the permission dictionaries and the names available by
default. -/
def protection (s : St A) : PyDict Key Val × (Nat → PyDict Name Val) × List Name := (s.reg, s.dicts, s.avail)

/-- Where the declarations for an object are kept: a module has its own, any other object has those
of its type. -/
def keyOf (W : World A) : Val → Key
  | .module m => .mod m
  | v => .ty (typeOf W v)

/-- The checker the registry has for an object: the one registered, the one for unknown types, or
the one for modules without declarations. -/
inductive Assigned (W : World A) (reg : PyDict Key Val) (w : Val) : Val → Prop
  | registered {c} : reg.get? (keyOf W w) = some c → IsChecker c → Assigned W reg w c
  | unknown : (∀ m, w ≠ .module m) → reg.get? (keyOf W w) = none → Assigned W reg w (.checker 1 2 3)
  | named : typeOf W w = "module" → (∀ m, w = .module m → reg.get? (.mod m) = none) → Assigned W reg w (.checker 2 4 5)

/-- If the value is a security proxy, it wraps an object that is not, under the checker the registry
has for that object. -/
def Issued (W : World A) (reg : PyDict Key Val) (v : Val) : Prop :=
  ∀ i w c, v = .proxy i w c → ¬ IsProxy w ∧ Assigned W reg w c

/-- The application relies on the configuration: its code changes no declarations, its objects do not
bring checkers of their own, and the proxies it returns are the registry's. -/
structure Relies (W : World A) (s0 : St A) : Prop where
  declarations : ∀ r s, protection (W.apply r s).2 = protection s
  noOwn : ∀ v s k s', W.apply (.getattr v "__Security_checker__") s ≠ (.ok k, s')
  results : ∀ r s v s', protection s = protection s0 → W.apply r s = (.ok v, s') →
    Issued W s0.reg v ∧ ∀ i cls u, v ≠ .deco i cls u

/-- A step of untrusted code holding some values, or of anybody else: anything may happen but
changes of the declarations. -/
inductive Uses (X : Ctx A) : St A × List Val → St A × List Val → Prop
  | returns {s held p op v s'} : p ∈ held → (∀ a ∈ opArgs op, a ∈ held) → pop X p op s = (.ok v, s') →
      Uses X (s, held) (s', v :: held)
  | raises {s held p op e s'} : p ∈ held → (∀ a ∈ opArgs op, a ∈ held) → pop X p op s = (.err e, s') →
      Uses X (s, held) (s', held)
  | constant {s held v} : Basic v → Uses X (s, held) (s, v :: held)
  | elsewhere {s held s'} : protection s' = protection s → Uses X (s, held) (s', held)

/-- Any number of steps. -/
inductive Session (X : Ctx A) : St A × List Val → St A × List Val → Prop
  | nil {a} : Session X a a
  | cons {a b c} : Session X a b → Uses X b c → Session X a c

/-- The object has no `__iter__`. -/
def NoIter (W : World A) (s : St A) (w : Val) : Prop :=
  ∃ e s', W.apply (.getattr w "__iter__") { s with trace := s.trace ++ [.probed (.getattr w "__iter__")] } = (.err e, s')

/-- The declarations `σ` and the interaction of the current thread permit the name on the object: it
is declared public, or with a permission that the interaction grants on the object in state `s`, or
— for reading — it is not declared and available by default, or it is an undeclared `__iter__` of
something that has none. -/
inductive Permits (X : Ctx A) (σ : Store) (s : St A) (w : Val) (write : Bool) (n : Name) : Prop
  | isPublic : σ (keyOf X.W w) write n = some publicV → Permits X σ s w write n
  | granted {perm ix s'} : σ (keyOf X.W w) write n = some perm → perm ≠ publicV →
      (s.threads X.tid).interaction = some ix → IxAnswer X.W s perm w ix (.ok true) s' → Permits X σ s w write n
  | byDefault : write = false → σ (keyOf X.W w) false n = none → n ∈ availableByDefault → Permits X σ s w write n
  | noIter : write = false → σ (keyOf X.W w) false n = none → n = "__iter__" → NoIter X.W s w → Permits X σ s w write n

/-- Is a write of the declarations meant. -/
def isWrite : CheckKind → Bool
  | .setattr => true
  | _ => false

/-- `ro` is what the operation `op` on the proxy `p` stands for, carried out on the wrapped object of
the proxy acting in it, and permitted by the declarations and the interaction; or it is one of the
unchecked operations. -/
def Permitted (X : Ctx A) (σ : Store) (s : St A) (p : Val) (op : POp) (ro : RawOp) : Prop :=
  match need .c p op with
  | some q => ∃ i w c, q.actor = .proxy i w c ∧ ro = q.carry w ∧ Permits X σ s w (isWrite q.kind) q.name
  | none => ∃ i w c, p = .proxy i w c ∧ Free .c w op ro

end ZS.Spec
