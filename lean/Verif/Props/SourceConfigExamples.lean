import Verif.Props.SourceConfig
import Verif.Props.SourceInit
import Verif.Props.SourceDeclExamples

/-!
# A configuration read from source
-/

namespace ZS.Props.Shop
open ZS ZS.PyC ZS.Src

/-- Names of classes and interfaces. -/
def naming : Naming := ⟨fun _ => "shop", fun t => t, fun _ => "shop.interfaces", fun _ => "IThing", .none⟩

/-- Nothing has been read. -/
def unread : St Reading := initial Ex.ext ⟨[], [], []⟩

/-- The calls for the configuration of `Props/Deploy`: some arguments are left out. -/
def calls : List Invocation :=
  [.cls "Thing" "require" [.v Ex.view, .list [nameV "secret"], .v .none, .v .none, .list [nameV "w"], .v .none],
   .cls "Thing" "allow" [.list [nameV "__getitem__"], .v .none]]

theorem calls_written : WritesAll config calls :=
  .cons (.require trivial ⟨.list ["secret"], .none, rfl, .list ["w"], .none⟩) (.cons (.allow (.list ["__getitem__"]) .none) .nil)

/-- Configured from source, the registry is as the model's configuring leaves it. -/
example : tables "Thing" (sourceConfigure (Ex.X .py) naming unread calls Ex.s0).2 = tables "Thing" s0
    ∧ tables "Thing" s0 = some ([("secret", Ex.view), ("__getitem__", publicV)], [("w", Ex.view)]) := by
  decide +kernel

/-- What an action says. -/
def told (r : Raw) : Option (Name × Name) :=
  match takeKw "callable" r, takeKw "args" r with
  | some (.sym f), some (.tuple (_ :: .v (.str _ n) :: _)) => some (f, n)
  | some (.sym f), _ => some (f, "")
  | _, _ => none

/-- The actions emitted, and how reading ended. -/
def readOut (c : List Invocation) : List (Option (Name × Name)) × Option (Val ⊕ Exn) :=
  ((sourceReads naming c unread).2.app.actions.map told,
   match (sourceReads naming c unread).1 with
   | .ok (.v v) => some (.inl v)
   | .err e => some (.inr e)
   | _ => none)

/-- In order: the class to be like first, then the names; a directive about a module; without a permission nothing but the
class to be like is emitted before the error; a schema that is `None` is an error after everything else. -/
example : readOut [.cls "Thing" "require" [.v Ex.view, .list [nameV "a"], .v .none, .v (.type "Other"), .list [nameV "w"], .v .none],
      .mod "m" "require" [.v Ex.view, .list [nameV "f", nameV "f"], .list [.iface [("g", .notField), ("f", .notField)]]]]
      = ([some ("protectLikeUnto", ""), some ("protectName", "a"), some ("protectSetAttribute", "w"), some ("protectModule", "f"),
          some ("protectModule", "g")], some (.inl .none))
    ∧ readOut [.cls "Thing" "require" [.v .none, .list [nameV "a"], .v .none, .v (.type "Other"), .v .none, .v .none]]
      = ([some ("protectLikeUnto", "")], some (.inr .configurationError))
    ∧ readOut [.cls "Thing" "require" [.v Ex.view, .list [nameV "a"], .v .none, .v .none, .v .none, .list [.v .none]]]
      = ([some ("protectName", "a")], some (.inr .typeError)) := by
  decide +kernel

/-- The same arguments as directives of the model. -/
example : Writes (.mod "m" (.require Ex.view ["f", "f"] [[("g", .notField), ("f", .notField)]]))
    (.mod "m" "require" [.v Ex.view, .list [nameV "f", nameV "f"], .list [.iface [("g", .notField), ("f", .notField)]]]) :=
  .modRequire rfl rfl

/-- From the text of the directives to what the text of the proxy carries out. -/
example := C80_configured Ex.ext () config calls calls_written ready fine naming unread rfl (Ex.X .py) rfl

/-- The attributes an object has been given, and whether a constructor ended well. -/
def built (r : Res PV × St Attrs) : Bool × List (Name × Option Nat) :=
  (match r.1 with
   | .ok _ => true
   | _ => false,
   r.2.app.map fun p => (p.1, match p.2 with
     | .dict i => some i
     | _ => none))

/-- The constructors: two dictionaries, one, none; a combined checker. -/
example (X : Ctx Attrs) (s : St Attrs) (h : s.app = []) :
    built (run (objLang X) Checker.CheckerPy.__init__ [.sym "self", .dict 4, .dict 5] s)
      = (true, [("set_permissions", some 5), ("get_permissions", some 4)])
    ∧ built (run (objLang X) Checker.CheckerPy.__init__ [.sym "self", .v (.int 3), .dict 5] s) = (false, [])
    ∧ built (run (objLang X) Checker.CombinedChecker.__init__ [.sym "self", .v (.checker 1 4 5), .v (.checker 2 6 7)] s)
      = (true, [("_checker2", none), ("set_permissions", some 5), ("get_permissions", some 4)]) := by
  rw [(C79_Checker_init X 4 5 s).1, C79_Checker_init_get, ((C79_Combined_init X _ _ s).1 4 5 rfl).1]
  simp [built, given, h]

end ZS.Props.Shop
