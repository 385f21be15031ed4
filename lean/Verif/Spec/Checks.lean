import Verif.Model.State

/-!
# Specification of security checks

Independent of the model's checking functions: only the state, the world and `typeOf`-free data
are mentioned.
-/

namespace ZS.Spec
variable {A : Type}

/-- The dictionary declares permission `p` for the name.  In pure Python a stored `None` does
not count as a declaration; in the compiled checker it does. -/
def Declared (impl : Impl) (d : PyDict Name Val) (n : Name) (p : Val) : Prop :=
  d.get? n = some p ∧ (impl = .py → p ≠ .none)

/-- Nothing is declared for the name. -/
def Undeclared (impl : Impl) (d : PyDict Name Val) (n : Name) : Prop := ∀ p, ¬ Declared impl d n p

/-- The name is available without any declaration.  The compiled checker looks at the list only
for names beginning with two underscores. -/
def Available (impl : Impl) (avail : List Name) (n : Name) : Prop :=
  n ∈ avail ∧ (impl = .c → ∃ rest, n = "__" ++ rest)

/-- Everybody taking part in the interaction is the system user. -/
def AllSystem (s : St A) (i : Nat) : Prop := ∀ p ∈ (s.ixs i).participations, (s.parts p).principal = .system

/-- The decision of a built-in interaction. -/
def BuiltinGrants (s : St A) (i : Nat) (perm : Val) : Prop :=
  (s.ixs i).permissive = true ∨ perm = publicV ∨ AllSystem s i

/-- What asking interaction `ix` about `perm` on `obj` gives, and the state afterwards. -/
inductive IxAnswer (W : World A) (s : St A) (perm obj : Val) : Val → Res Bool → St A → Prop
  | yes {i} : BuiltinGrants s i perm → IxAnswer W s perm obj (.ix i) (.ok true) s
  | no {i} : ¬ BuiltinGrants s i perm → IxAnswer W s perm obj (.ix i) (.ok false) s
  | foreign {v r s1 ret} : (∀ i, v ≠ .ix i) →
      W.apply (.method v "checkPermission" [perm, obj])
        { s with trace := s.trace ++ [.probed (.method v "checkPermission" [perm, obj])] } = (.ok r, s1) →
      ret = truthy W r →
      IxAnswer W s perm obj v (.ok ret)
        { s1 with trace := s.trace ++ [.probed (.method v "checkPermission" [perm, obj])] }
  | foreignErr {v e s1} : (∀ i, v ≠ .ix i) →
      W.apply (.method v "checkPermission" [perm, obj])
        { s with trace := s.trace ++ [.probed (.method v "checkPermission" [perm, obj])] } = (.err e, s1) →
      IxAnswer W s perm obj v (.err e)
        { s1 with trace := s.trace ++ [.probed (.method v "checkPermission" [perm, obj])] }
  | foreignDiv {v s1} : (∀ i, v ≠ .ix i) →
      W.apply (.method v "checkPermission" [perm, obj])
        { s with trace := s.trace ++ [.probed (.method v "checkPermission" [perm, obj])] } = (.diverge, s1) →
      IxAnswer W s perm obj v .diverge
        { s1 with trace := s.trace ++ [.probed (.method v "checkPermission" [perm, obj])] }

/-- The outcome of requiring permission `p` (declared for `n`) on `o`. -/
inductive PermSpec (X : Ctx A) (s : St A) (o : Val) (n : Name) (p : Val) : Res Unit × St A → Prop
  | isPublic : p = publicV → PermSpec X s o n p (.ok (), s)
  | noInteraction : p ≠ publicV → (s.threads X.tid).interaction = none →
      PermSpec X s o n p (.err (.attributeError "interaction"), s)
  | allowed {ix s'} : p ≠ publicV → (s.threads X.tid).interaction = some ix →
      IxAnswer X.W s p o ix (.ok true) s' → PermSpec X s o n p (.ok (), s')
  | refused {ix s'} : p ≠ publicV → (s.threads X.tid).interaction = some ix →
      IxAnswer X.W s p o ix (.ok false) s' → PermSpec X s o n p (.err (.unauthorized o n p), s')
  | policyFails {ix s' e} : p ≠ publicV → (s.threads X.tid).interaction = some ix →
      IxAnswer X.W s p o ix (.err e) s' → PermSpec X s o n p (.err e, s')
  | policyHangs {ix s'} : p ≠ publicV → (s.threads X.tid).interaction = some ix →
      IxAnswer X.W s p o ix .diverge s' → PermSpec X s o n p (.diverge, s')

/-- The outcome of a read check against permission dictionary `d`. -/
inductive ReadSpec (X : Ctx A) (H : Val → Name → M A Bool) (s : St A) (d : PyDict Name Val) (o : Val)
    (n : Name) : Res Unit × St A → Prop
  | declared {p r} : Declared X.impl d n p → PermSpec X s o n p r → ReadSpec X H s d o n r
  | byDefault : Undeclared X.impl d n → Available X.impl s.avail n → ReadSpec X H s d o n (.ok (), s)
  | noIter {s'} : Undeclared X.impl d n → ¬ Available X.impl s.avail n → n = "__iter__" →
      H o n s = (.ok false, s') → ReadSpec X H s d o n (.ok (), s')
  | hasIter {s'} : Undeclared X.impl d n → ¬ Available X.impl s.avail n → n = "__iter__" →
      H o n s = (.ok true, s') → ReadSpec X H s d o n (.err (.forbidden n o), s')
  | iterFails {s' e} : Undeclared X.impl d n → ¬ Available X.impl s.avail n → n = "__iter__" →
      H o n s = (.err e, s') → ReadSpec X H s d o n (.err e, s')
  | iterHangs {s'} : Undeclared X.impl d n → ¬ Available X.impl s.avail n → n = "__iter__" →
      H o n s = (.diverge, s') → ReadSpec X H s d o n (.diverge, s')
  | forbidden : Undeclared X.impl d n → ¬ Available X.impl s.avail n → n ≠ "__iter__" →
      ReadSpec X H s d o n (.err (.forbidden n o), s)

/-- The outcome of a write check against permission dictionary `d`: nothing by default. -/
inductive WriteSpec (X : Ctx A) (s : St A) (d : PyDict Name Val) (o : Val) (n : Name) :
    Res Unit × St A → Prop
  | declared {p r} : Declared X.impl d n p → PermSpec X s o n p r → WriteSpec X s d o n r
  | forbidden : Undeclared X.impl d n → WriteSpec X s d o n (.err (.forbidden n o), s)

end ZS.Spec
