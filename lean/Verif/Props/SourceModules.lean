import Verif.Spec.Top
import Verif.Props.Import

/-!
# C89: the module-level code of C73 is that of the source
-/

namespace ZS.Top
open ZS.Imp (Mod Line Stmt Err)

/-- The names of the exceptions. -/
def errName : Err → String
  | .importError => "ImportError"
  | .attributeError => "AttributeError"
  | .nameError => "NameError"
  | .other => "MemoryError"

/-- Does a statement import something of the package. -/
def ofPackage : Top → Bool
  | .imp m => (modNamed m).isSome
  | .frm m _ _ => (modNamed m).isSome
  | _ => false

mutual

def handled1 (inside : Bool) : Top → List (List String)
  | .tryexc a types _ b => (if a.any ofPackage = inside then [types] else []) ++ handled inside a ++ handled inside b
  | .ite c a b =>
    match c with
    | .other _ => []
    | _ => handled inside a ++ handled inside b
  | _ => []

/-- The exceptions for which the `try` statements around imports of the package, or the others, have handlers. -/
def handled (inside : Bool) : List Top → List (List String)
  | [] => []
  | t :: r => handled1 inside t ++ handled inside r

end

/-- What a line takes from another module. -/
def taken : Stmt → Option (Mod × String)
  | .frm t n _ => some (t, n)
  | .tryFrm t n _ _ => some (t, n)
  | _ => none

end ZS.Top

namespace ZS.Props
open ZS.Top
open ZS.Imp (Mod Line Stmt Err)

set_option maxRecDepth 100000 in
/-- **C89.** For every module written in Python: the lines of the model are the statements of the text, in this order, under these
conditions, reading these names.  Left out on both sides are imports from outside the package, labels of objects, places
without a name, and the content of the registry. -/
theorem C89_bodies (pure watch : Bool) (m : Mod) (hm : Imp.isC m = false) :
    ((Imp.body pure watch m).filter isReal).map bare = srcLines pure watch m := by
  revert pure watch
  cases m <;> first | (cases hm; done) | (clear hm; decide +kernel)

set_option maxRecDepth 100000 in
/-- **C89.** No name is left out that matters to another module: whatever one module takes from another, by the text, is among
the names that the model's lines bind there, or that the C module puts into its dictionary. -/
theorem C89_complete (pure watch : Bool) (m t : Mod) (n : String) (l : Line) (hl : l ∈ srcLines pure watch m)
    (h : taken l.stmt = some (t, n)) : n ∈ (if Imp.isC t then Imp.exports t else known t) := by
  have key : ∀ pure watch, ∀ m ∈ Imp.allMods, ∀ l ∈ srcLines pure watch m, ∀ q ∈ taken l.stmt,
      q.2 ∈ (if Imp.isC q.1 then Imp.exports q.1 else known q.1) := by decide +kernel
  exact key pure watch m (Imp.mem_allMods m) l hl (t, n) (by rw [h]; rfl)

set_option maxRecDepth 100000 in
/-- **C89.** What is caught around imports of the package, and around those from outside, is what the handlers in the text name. -/
theorem C89_caught (m : Mod) (e : Err) :
    (∀ types ∈ handled true (source m), (Imp.caught e = true ↔ errName e ∈ types)) ∧
    (∀ types ∈ handled false (source m), (e = .importError ↔ errName e ∈ types)) ∧
    handled true (source .proxy) ≠ [] ∧ handled true (source .checker) ≠ [] := by
  have key : ∀ m ∈ Imp.allMods, ∀ e ∈ [Err.importError, .attributeError, .nameError, .other],
    (∀ types ∈ handled true (source m), (Imp.caught e = true ↔ errName e ∈ types)) ∧
    (∀ types ∈ handled false (source m), (e = .importError ↔ errName e ∈ types)) ∧
    handled true (source .proxy) ≠ [] ∧ handled true (source .checker) ≠ [] := by decide +kernel
  exact key m (Imp.mem_allMods m) e (by cases e <;> decide)

/-! The statements that choose the implementation of checkers. -/
example : (srcLines false true .checker).filter (fun l => l.guard = [("_c_available", true)]) =
    ⟨[("_c_available", true)], .tryImp .cchecker "_c_available"⟩ ::
    (["Checker", "NoProxy", "_available_by_default", "_checkers", "_defaultChecker", "selectChecker"].map fun n =>
      ⟨[("_c_available", true)], .frm .cchecker n n⟩) ++ [⟨[("_c_available", true)], .work ["Checker", "INameBasedChecker"]⟩] := by decide +kernel

end ZS.Props
