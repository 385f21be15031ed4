import Verif.Model.Watching

/-!
# Specification of watching checkers
-/

namespace ZS.Spec
variable {A : Type}

/-- `repr` of the object succeeds and has no effects. -/
def ReprHarmless (W : World A) (o : Val) : Prop := ∀ s, ∃ r, W.apply (.special "__repr__" o []) s = (.ok r, s)

/-- The lines one watched check with a given outcome has to write. -/
inductive Reports (verbosity : Int) (k : CheckKind) (n : Name) (o : Val) (avail : List Name) : Res Unit → List Line → Prop
  | unauthorized {p n' o'} : 1 ≤ verbosity → Reports verbosity k n o avail (.err (.unauthorized o' n' p)) [⟨k, .unauthorized, n, o⟩]
  | forbidden {n' o'} : 1 ≤ verbosity → Reports verbosity k n o avail (.err (.forbidden n' o')) [⟨k, .forbidden, n, o⟩]
  | refusedQuietly {e} : verbosity < 1 → Reports verbosity k n o avail (.err e) []
  | otherError {e} : e.isUnauthorized = false → e.isForbidden = false → Reports verbosity k n o avail (.err e) []
  | availableRead : 1 < verbosity → k ≠ .setattr → n ∈ avail → Reports verbosity k n o avail (.ok ()) [⟨k, .alwaysAvailable, n, o⟩]
  | grantedRead : 1 < verbosity → k ≠ .setattr → n ∉ avail → Reports verbosity k n o avail (.ok ()) [⟨k, .granted, n, o⟩]
  | grantedWrite : 1 < verbosity → k = .setattr → Reports verbosity k n o avail (.ok ()) [⟨k, .granted, n, o⟩]
  | grantedQuietly : verbosity ≤ 1 → Reports verbosity k n o avail (.ok ()) []
  | hangs : Reports verbosity k n o avail .diverge []

end ZS.Spec
