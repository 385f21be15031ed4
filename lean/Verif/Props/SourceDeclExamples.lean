import Verif.Props.SourceDecl
import Verif.Props.SourceExamples

/-!
# Runs of the source of the declarations
-/

namespace ZS.Props.Shop
open ZS ZS.PyC ZS.Src

/-- The language for the examples. -/
abbrev D := declLang (Ex.X .py)

/-- The dictionaries of the checker of a class. -/
def tables (t : String) (s : St Unit) : Option (PyDict Name Val × PyDict Name Val) :=
  match s.reg.get? (.ty t) with
  | some c => (checkerDicts c).map fun d => (s.dicts d.1, s.dicts d.2)
  | none => none

/-- `protectName` on a class without a checker makes one; the id of the public permission is translated, other
permissions are kept; `protectSetAttribute` writes to the other dictionary. -/
example : tables "New" (run D Protectclass.protectName [.v (.type "New"), .v (.str 0 "a"), .v (.str 0 "zope.Public")] s0).2
      = some ([("a", publicV)], [])
    ∧ tables "New" (run D Protectclass.protectName [.v (.type "New"), .v (.str 0 "a"), .v Ex.view] s0).2
      = some ([("a", Ex.view)], [])
    ∧ tables "New" (run D Protectclass.protectSetAttribute [.v (.type "New"), .v (.str 0 "a"), .v Ex.view] s0).2
      = some ([], [("a", Ex.view)]) := by
  decide +kernel

/-- `protectLikeUnto` copies both dictionaries of another class. -/
example : (tables "New" (run D Protectclass.protectLikeUnto [.v (.type "New"), .v (.type "Thing")] s0).2)
    = tables "Thing" s0 ∧ (tables "Thing" s0).isSome = true := by
  decide +kernel

/-- `protectModule` on a module. -/
example : ((run D Metaconfigure.protectModule [.v (.module "m"), .v (.str 0 "f"), .v Ex.view] s0).2.reg.get? (.mod "m")).isSome = true := by
  decide +kernel

/-- `BasicTypes[t] = v` and `del`: both tables; deleting what is not there raises. -/
example : (run D Checker._BasicTypes.__setitem__ [.sym "BasicTypes", .v (.type "New"), .v (.noProxy)] s0).2.reg.get? (.ty "New") = some (.noProxy)
    ∧ shown (run D Checker._BasicTypes.__delitem__ [.sym "BasicTypes", .v (.type "New")] s0) = some (.inr .keyError)
    ∧ shown (run D Checker._BasicTypes.clear [.sym "BasicTypes"] s0) = some (.inr .notImplementedError) := by
  decide +kernel

/-- The names a constructed checker has permissions for. -/
def declares : Res PV × St Unit → Option (PyDict Name Val)
  | (.ok (.v c), s) => (checkerDicts c).map fun d => s.dicts d.1
  | _ => none

/-- `NamesChecker(["a", "b"], view, c=edit)`, a contradiction, and `MultiChecker` with three kinds of
specifications. -/
example : declares (runIn D Checker.NamesChecker [] [.list [nameV "a", nameV "b"], .v Ex.view] (kwArgs [("c", .str 1 "edit")]) s0)
      = some [("c", .str 1 "edit"), ("a", Ex.view), ("b", Ex.view)]
    ∧ shown (runIn D Checker.NamesChecker [] [.list [nameV "c"], .v Ex.view] (kwArgs [("c", .str 1 "edit")]) s0)
      = some (.inr (.duplicationName "c")) := by
  decide +kernel

example : declares (run D Checker.MultiChecker [.list [.tuple [.list [nameV "a"], .v Ex.view], .tuple [.iface [("i", .notField)], .v publicV],
      .kwds (kwArgs [("k", .str 1 "edit")])]] s0)
      = some [("a", Ex.view), ("i", publicV), ("k", .str 1 "edit")]
    ∧ SpecArgs [.names ["a"] Ex.view, .names ["i"] publicV, .dict [("k", .str 1 "edit")]]
      [.tuple [.list [nameV "a"], .v Ex.view], .tuple [.iface [("i", .notField)], .v publicV], .kwds (kwArgs [("k", .str 1 "edit")])] :=
  ⟨by decide +kernel, .cons (.names ["a"] _) (.cons (.iface [("i", .notField)] _) (.cons (.dict _) .nil))⟩

end ZS.Props.Shop
