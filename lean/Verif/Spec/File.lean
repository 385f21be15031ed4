import Verif.Model.File
import Verif.Spec.Meta
import Verif.Spec.Zcml

/-!
# What a configuration with included files says

Everything is read off the sequence of events: no contexts, no actions, no sorting.
-/

namespace ZS.Spec

/-! ## Groups -/

/-- How many groups further inside one is, unless the group in which one began has been left. -/
def nest : Option Nat → Ev → Option Nat
  | none, _ => none
  | some n, .enter _ => some (n + 1)
  | some 0, .leave => none
  | some (n + 1), .leave => some n
  | some n, _ => some n

/-- The group in which one began is never left. -/
def StaysOpen (l : List Ev) : Prop := (l.foldl nest (some 0)).isSome = true

instance (l : List Ev) : Decidable (StaysOpen l) := by unfold StaysOpen; infer_instance

/-- The files that are open after the events, the outermost first. -/
def includePath : List Ev → List String
  | [] => []
  | .enter (some file) :: r => if StaysOpen r then file :: includePath r else includePath r
  | _ :: r => includePath r

/-- All redefinitions of permissions among the events. -/
def redefinitions : List Ev → List ZDirective
  | [] => []
  | .redefine a b :: r => .redefine a b :: redefinitions r
  | _ :: r => redefinitions r

/-- The redefinitions in force after the events: all of them, wherever they stand, from the first one on
whose group is still open. -/
def redefinitionsInForce : List Ev → List ZDirective
  | [] => []
  | .redefine a b :: r =>
    if StaysOpen r then .redefine a b :: redefinitions r else redefinitionsInForce r
  | _ :: r => redefinitionsInForce r

/-- After the events, the id `u` stands for `v`. -/
def StandsForAt (f : IdField) (pre : List Ev) (u v : String) : Prop :=
  StandsFor f (redefinitionsInForce pre).reverse u v

/-! ## Directives -/

/-- After the events `pre`, the event means the directive.  (The identity of the string that is the
permission does not matter.) -/
inductive Meant (f : IdField) (pre : List Ev) : Ev → Directive → Prop
  | require {t r raw v} : r.permission = some raw → StandsForAt f pre (f.strip raw) v →
      Meant f pre (.cls t (.require r)) (.cls t (.require
        ⟨.str 0 v, r.attributes, r.interface, r.likeClass, r.setAttributes, r.setSchema⟩))
  | requireNothing {t r} : r.permission = none →
      Meant f pre (.cls t (.require r)) (.cls t (.require
        ⟨.none, r.attributes, r.interface, r.likeClass, r.setAttributes, r.setSchema⟩))
  | allow {t l is} : Meant f pre (.cls t (.allow l is)) (.cls t (.allow l is))
  | implements {t is} : Meant f pre (.cls t (.implements is)) (.cls t (.implements is))
  | modAllow {m l is} : Meant f pre (.mod m (.allow l is)) (.mod m (.allow l is))
  | modRequire {m raw v l is} : StandsForAt f pre (f.strip raw) v →
      Meant f pre (.mod m (.require raw l is)) (.mod m (.require (.str 0 v) l is))

/-- At position `i`, in the file with include path `π`, the configuration says the directive. -/
def Says (f : IdField) (evs : List Ev) (i : Nat) (π : List String) (d : Directive) : Prop :=
  ∃ e, evs[i]? = some e ∧ Meant f (evs.take i) e d ∧ π = includePath (evs.take i)

/-- Permission ids given in the event. -/
inductive Given : Ev → String → Prop
  | require {t r raw} : r.permission = some raw → Given (.cls t (.require r)) raw
  | modRequire {m raw l is} : Given (.mod m (.require raw l is)) raw
  | from_ {a b} : Given (.redefine a b) a
  | to {a b} : Given (.redefine a b) b

/-- Permission ids of which the event requires that they are defined: those given, as written, except
zope.Public. -/
def Needs (f : IdField) (evs : List Ev) (id : String) : Prop :=
  ∃ e ∈ evs, ∃ raw, Given e raw ∧ id = f.strip raw ∧ id ≠ "zope.Public"

/-- The event cannot be read after the events `pre`. -/
inductive Wrong (f : IdField) (pre : List Ev) : Ev → Exn → Prop
  | leave : ¬ StaysOpen (pre ++ [.leave]) → Wrong f pre .leave .configurationError
  | permission {raw} : f.valid (f.strip raw) = false → Wrong f pre (.permission raw) .configurationError
  | given {e raw} : Given e raw → f.valid (f.strip raw) = false → Wrong f pre e .configurationError
  | directive {e d x} : (∀ raw, Given e raw → f.valid (f.strip raw) = true) → Meant f pre e d → Raises d x →
      Wrong f pre e x

/-- No event is wrong. -/
def Readable (f : IdField) (evs : List Ev) : Prop :=
  ∀ i e, evs[i]? = some e → ∀ x, ¬ Wrong f (evs.take i) e x

/-! ## Conflicts -/

/-- What two directives may both determine. -/
inductive Subject where
  /-- what reading (`false`) or writing (`true`) a name of a class or module requires -/
  | requirement (k : Key) (w : Bool) (n : Name)
  /-- which permission has the id -/
  | permission (id : String)
  /-- the security policy -/
  | policy
  deriving DecidableEq

/-- How often the name is in the interfaces. -/
def inInterfaces (is : List Iface) (n : Name) : Nat := (is.map fun i => i.keys.count n).sum

/-- How often the name is a writable field of the interfaces. -/
def inSchemas (is : List Iface) (n : Name) : Nat :=
  (is.map fun i => if i.get? n = some (.field false) then i.keys.count n else 0).sum

/-- How often the event determines the subject.  The module directives take each name once. -/
def times (f : IdField) : Ev → Subject → Nat
  | .permission raw, .permission id => if f.strip raw = id then 1 else 0
  | .policy _, .policy => 1
  | .cls t (.require r), .requirement k w n =>
    if k = .ty t then
      match w with
      | false => r.attributes.count n + inInterfaces (r.interface.filterMap id) n
      | true => r.setAttributes.count n + inSchemas (r.setSchema.filterMap id) n
    else 0
  | .cls t (.allow l is), .requirement k false n =>
    if k = .ty t then l.count n + inInterfaces (is.filterMap id) n else 0
  | .mod m (.allow l is), .requirement k false n =>
    if k = .mod m then min 1 (l.count n + inInterfaces is n) else 0
  | .mod m (.require _ l is), .requirement k false n =>
    if k = .mod m then min 1 (l.count n + inInterfaces is n) else 0
  | _, _ => 0

/-- The file is included, directly or not, by the other one. -/
def Within (outer inner : List String) : Prop := outer <+: inner ∧ outer ≠ inner

/-- The event at position `i` determines the subject once, and whatever else determines it is in files
included by the file the event is in. -/
def Outermost (f : IdField) (evs : List Ev) (i : Nat) (x : Subject) : Prop :=
  (∃ e, evs[i]? = some e ∧ times f e x = 1)
  ∧ ∀ j e, evs[j]? = some e → 0 < times f e x → j ≠ i →
    Within (includePath (evs.take i)) (includePath (evs.take j))

/-- Whatever is determined is determined by one outermost event. -/
def Unambiguous (f : IdField) (evs : List Ev) : Prop :=
  ∀ x, (∃ e ∈ evs, 0 < times f e x) → ∃ i, Outermost f evs i x

/-! ## Effects -/

/-- The effect of a directive of which only some declarations count: those hold, the class's other
requirements are those of the class it is to be like where that has one, and nothing else changes. -/
structure EffectOf (d : Directive) (counts : Bool → Name → Prop) (σ σ' : Store) : Prop where
  frame : ∀ k, k ≠ about d → σ' k = σ k
  declared : ∀ w n p, Declares d w n p → counts w n → Means p (σ' (about d) w n)
  same : (∀ u, ¬ LikeClass d u) → ∀ w n, (∀ p, Declares d w n p → ¬ counts w n) → σ' (about d) w n = σ (about d) w n
  likeSome : ∀ u, LikeClass d u → ∀ w n q, (∀ p, Declares d w n p → ¬ counts w n) → σ u w n = some q →
    σ' (about d) w n = some q
  likeNone : ∀ u, LikeClass d u → ∀ w n, (∀ p, Declares d w n p → ¬ counts w n) → σ u w n = none →
    σ' (about d) w n = σ (about d) w n

/-- The effect of what the configuration says from position `i` on, one directive after the other:
declarations count where no including file declares the same. -/
inductive EffectsFrom (f : IdField) (evs : List Ev) : Nat → Store → Store → Prop
  | done {i σ} : evs[i]? = none → EffectsFrom f evs i σ σ
  | other {i σ τ e} : evs[i]? = some e → (∀ π d, ¬ Says f evs i π d) → EffectsFrom f evs (i + 1) σ τ →
      EffectsFrom f evs i σ τ
  | directive {i σ σ1 τ π d} : Says f evs i π d →
      EffectOf d (fun w n => Outermost f evs i (.requirement (about d) w n)) σ σ1 → EffectsFrom f evs (i + 1) σ1 τ →
      EffectsFrom f evs i σ τ

end ZS.Spec
