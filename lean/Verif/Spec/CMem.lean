import Verif.Model.CMem

/-!
# What the C API asks of the extension modules

Stated with the log of calls of other code only.
-/

namespace ZS.CM

/-- The entry is an answer whose reference the code does not release: the bytes made by
`PyUnicode_AsUTF8String`, and a `__Security_checker__` that is None. -/
def leakedBy (E : Env) (o : Nat) (e : Call × Reply) : Bool :=
  !e.2.null && decide (e.2.obj = o) &&
    (decide (e.1 = .asUtf8) || (decide (e.1 = .securityChecker) && decide (o = E.none)))

/-- How many references to the object are never released. -/
def leaks (E : Env) (log : List (Call × Reply)) (o : Nat) : Nat := log.countP (leakedBy E o)

/-- Some name could not be encoded in UTF-8. -/
def NotEncodable (log : List (Call × Reply)) : Prop := ∃ e ∈ log, e.1 = .asUtf8 ∧ e.2.null = true

/-- Other code removed the object from a dictionary. -/
def Dropped (log : List (Call × Reply)) (o : Nat) : Prop := ∃ e ∈ log, o ∈ e.2.drops

/-- `isinstance(object, Exception)` raised an exception. -/
def Misread (log : List (Call × Reply)) : Prop := ∃ e ∈ log, e.1 = .isInstance ∧ e.2.num < 0

/-- `PyIter_Next` returned NULL, which may mean failure or just the end. -/
def Ended (log : List (Call × Reply)) : Prop := ∃ e ∈ log, e.1 = .iterNext ∧ e.2.null = true

/-- The only excuses for invalid memory accesses: an invalid pointer is dereferenced only after a name
could not be encoded, a dangling pointer only after other code removed the object from a dictionary,
and a reference that is not owned is never released. -/
def Excuse (log : List (Call × Reply)) : Fault → Prop
  | .null => NotEncodable log
  | .dangling o => Dropped log o
  | .release _ => False

/-- Objects the caller or the interpreter keeps alive: static variables and constants, and for a
proxy among them what it refers to. -/
structure Kept (E : Env) : Prop where
  none : E.held E.none = true
  notImplemented : E.held E.notImplemented = true
  threadLocal : E.held E.threadLocal = true
  defaultChecker : E.held E.defaultChecker = true
  checkers : E.held E.checkers = true
  available : E.held E.available = true
  proxyType : E.held E.proxyType = true
  const : ∀ n, E.held (E.const n) = true
  typeOf : ∀ o, E.held (E.typeOf o) = true
  wrapped : ∀ p, E.held p = true → E.held (E.wrapped p) = true
  checkerOf : ∀ p, E.held p = true → E.held (E.checkerOf p) = true

/-- Reference counts: a call that ends has one reference to its result more than it began with, and
otherwise as many as before, except for what `leaks` counts. -/
def Balanced (E : Env) (x : C α) (result : α → Ptr) : Prop :=
  ∀ (m : Mem) (a : α) (m' : Mem), m.log = [] → m.err = false → x m = .ok a m' →
    ∀ o, m'.own o = m.own o + (if result a = some o then 1 else 0) + leaks E m'.log o

/-- Memory: no invalid access, and no release of a reference that is not owned, without excuse. -/
def MemorySafe (x : C α) : Prop :=
  ∀ (m : Mem) (f : Fault) (m' : Mem), m.log = [] → m.err = false → x m = .fault f m' → Excuse m'.log f

/-- Error indicator: a result that means success comes without error set, one that means failure
comes with an error, or says that an iterator is at its end. -/
def Truthful (x : C α) (failed : α → Bool) : Prop :=
  ∀ (m : Mem) (a : α) (m' : Mem), m.log = [] → m.err = false → x m = .ok a m' → ¬ Misread m'.log →
    (failed a = false → m'.err = false) ∧ (failed a = true → m'.err = true ∨ Ended m'.log)

/-- An int result means failure if it is negative. -/
def negative (i : Int) : Bool := decide (i < 0)

/-- No reference in a field is lost: a field with a dictionary keeps it. -/
def KeepsFields (x : C α) : Prop :=
  ∀ (m : Mem) (a : α) (m' : Mem), x m = .ok a m' → m'.lost = m.lost ∧
    (∀ k d, m.getperms k = some d → m'.getperms k = some d) ∧
    (∀ k d, m.setperms k = some d → m'.setperms k = some d)

end ZS.CM
