import Verif.Spec.Mediation
import Verif.Spec.Select

/-!
# Specification of adapter factories
-/

namespace ZS.Spec
variable {A : Type}

/-- The object behind at most one security proxy. -/
def Bared (impl : Impl) (s : St A) (v v' : Val) : Prop :=
  (∃ c, current impl s v = some (v', c)) ∨ (current impl s v = none ∧ v' = v)

/-- All of the arguments, bared. -/
inductive AllBared (impl : Impl) (s : St A) : List Val → List Val → Prop
  | nil : AllBared impl s [] []
  | cons {v v' l l'} : Bared impl s v v' → AllBared impl s l l' → AllBared impl s (v :: l) (v' :: l')

/-- Placing an adapter: `isLoc` says whether it provides `ILocation`, `read` and `write` access its
`__parent__`, `wrap` whether one that does not is put into a location proxy. -/
inductive Located (isLoc wrap : Bool) (read write : St A → Res Val × St A) (a parent : Val) (s : St A) :
    Res Val × St A → Prop
  | wrapped : isLoc = false → wrap = true →
      Located isLoc wrap read write a parent s (.ok (.deco s.nextId "LocationProxy" a),
        { s with nextId := s.nextId + 1, parents := fun k => if k = s.nextId then parent else s.parents k })
  | plain : isLoc = false → wrap = false → Located isLoc wrap read write a parent s (.ok a, s)
  | hasParent {p s1} : isLoc = true → read s = (.ok p, s1) → p ≠ .none →
      Located isLoc wrap read write a parent s (.ok a, s1)
  | adopted {s1 u s2} : isLoc = true → read s = (.ok .none, s1) → write s1 = (.ok u, s2) →
      Located isLoc wrap read write a parent s (.ok a, s2)
  | readFails {e s1} : isLoc = true → read s = (.err e, s1) → Located isLoc wrap read write a parent s (.err e, s1)
  | readHangs {s1} : isLoc = true → read s = (.diverge, s1) → Located isLoc wrap read write a parent s (.diverge, s1)
  | writeFails {s1 e s2} : isLoc = true → read s = (.ok .none, s1) → write s1 = (.err e, s2) →
      Located isLoc wrap read write a parent s (.err e, s2)
  | writeHangs {s1 s2} : isLoc = true → read s = (.ok .none, s1) → write s1 = (.diverge, s2) →
      Located isLoc wrap read write a parent s (.diverge, s2)

/-- Calling an adapter factory: `factory` is the call of the adapted factory, `place` puts its result
in place and `protect` does whatever has to be done with it before it is returned. -/
inductive Adapts (args : List Val) (factory : St A → Res Val × St A) (place : Val → Val → St A → Res Val × St A → Prop)
    (protect : Val → St A → Res Val × St A → Prop) (s : St A) : Res Val × St A → Prop
  | adapted {c rest a s1 b s2 r} : args = c :: rest → factory s = (.ok a, s1) → place a c s1 (.ok b, s2) →
      protect b s2 r → Adapts args factory place protect s r
  | placeFails {c rest a s1 e s2} : args = c :: rest → factory s = (.ok a, s1) → place a c s1 (.err e, s2) →
      Adapts args factory place protect s (.err e, s2)
  | placeHangs {c rest a s1 s2} : args = c :: rest → factory s = (.ok a, s1) → place a c s1 (.diverge, s2) →
      Adapts args factory place protect s (.diverge, s2)
  | noArgs {a s1} : args = [] → factory s = (.ok a, s1) → Adapts args factory place protect s (.err .indexError, s1)
  | fails {e s1} : factory s = (.err e, s1) → Adapts args factory place protect s (.err e, s1)
  | hangs {s1} : factory s = (.diverge, s1) → Adapts args factory place protect s (.diverge, s1)

end ZS.Spec
