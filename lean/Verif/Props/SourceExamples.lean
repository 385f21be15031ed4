import Verif.Props.SourceChecker2
import Verif.Props.SourceManagement
import Verif.Props.SourceSession

/-!
# Runs of the source

The interpreter on the text of the package, evaluated: a `Thing` as the configuration of
`Props/Deploy` protects it.
-/

namespace ZS.Props.Shop
open ZS ZS.PyC ZS.Src

/-- A result that is a value, or an exception. -/
def shown : Res PV × St Unit → Option (Val ⊕ Exn)
  | (.ok (.v v), _) => some (.inl v)
  | (.err e, _) => some (.inr e)
  | _ => none

/-- `CheckerPy.check`: an AttributeError without an interaction, forbidden if undeclared, granted by the one
that grants `view`. -/
example : shown (run (lang (Ex.X .py) own) Checker.CheckerPy.check [.v (.checker 102 100 101), .v (.obj 1), .v (.str 0 "secret")] s0)
      = some (.inr (.attributeError "interaction"))
    ∧ shown (run (lang (Ex.X .py) own) Checker.CheckerPy.check [.v (.checker 102 100 101), .v (.obj 1), .v (.str 0 "z")] now)
      = some (.inr (.forbidden "z" (.obj 1)))
    ∧ shown (run (lang (Ex.X .py) own) Checker.CheckerPy.check [.v (.checker 102 100 101), .v (.obj 1), .v (.str 0 "secret")] now)
      = some (.inl .none) := by
  decide +kernel

/-- `ProxyFactory(obj)` finds the checker of the class; `selectCheckerPy` gives it, and `None` for an
integer. -/
example : shown (run (lang (Ex.X .py) own) Checker.ProxyFactory [.v (.obj 1)] now) = some (.inl (.proxy 103 (.obj 1) (.checker 102 100 101)))
    ∧ shown (run (lang (Ex.X .py) own) Checker.selectCheckerPy [.v (.obj 1)] now) = some (.inl (.checker 102 100 101))
    ∧ shown (run (lang (Ex.X .py) own) Checker.selectCheckerPy [.v (.int 1)] now) = some (.inl .none) := by
  decide +kernel

/-- `canAccess` and `canWrite`. -/
example : shown (run (lang (Ex.X .py) own) Checker.canAccess [.v thing, .v (.str 0 "secret")] now) = some (.inl (.bool true))
    ∧ shown (run (lang (Ex.X .py) own) Checker.canAccess [.v thing, .v (.str 0 "secret")] s0) = some (.inr (.attributeError "interaction"))
    ∧ shown (run (lang (Ex.X .py) own) Checker.canWrite [.v thing, .v (.str 0 "w")] now) = some (.inl (.bool true)) := by
  decide +kernel

/-- The life of an interaction. -/
example : shown (run (lang (Ex.X .py) own) Management.newInteraction [] s0) = some (.inl .none)
    ∧ shown (run (lang (Ex.X .py) own) Management.getInteraction [] s0) = some (.inr .noInteraction)
    ∧ shown (run (lang (Ex.X .py) own) Management.getInteraction [] (run (lang (Ex.X .py) own) Management.newInteraction [] s0).2) = some (.inl (.ix 103)) := by
  decide +kernel

/-- Operations on the proxy: an attribute that is granted, one that is not, setting, comparing, an
operator and `in`. -/
example : shown (sourceOp (Ex.X .py) thing (.getattr "secret" false) now) = some (.inl innerPy)
    ∧ shown (sourceOp (Ex.X .py) thing (.getattr "secret" false) s0) = some (.inr (.attributeError "interaction"))
    ∧ shown (sourceOp (Ex.X .py) thing (.setattr "secret" (.int 0)) now) = some (.inr (.forbidden "secret" (.obj 1)))
    ∧ shown (sourceOp (Ex.X .py) thing (.contains (.int 0)) now) = some (.inr (.forbidden "__contains__" (.obj 1)))
    ∧ shown (sourceOp (Ex.X .py) thing (.getattr "_wrapped" true) s0) = some (.inl (.obj 1)) := by
  decide +kernel

/-- What the source has done after reading `secret`. -/
example : (sourceOp (Ex.X .py) thing (.getattr "secret" false) now).2.trace
    = [.probed (.method (.obj 50) "checkPermission" [Ex.view, .obj 1]), .performed (.baseGetattr (.obj 1) "secret"),
       .probed (.getattr (.obj 7) "__Security_checker__")] := by
  decide +kernel

end ZS.Props.Shop
