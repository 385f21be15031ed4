import Verif.Model.Import
import Verif.Source.Modules

/-!
# What the module-level code amounts to for the import of the package

A translation of the statements of the source into the lines of C73, for the names that matter there.
-/

namespace ZS.Top
open ZS.Imp (Mod Line Stmt)

/-- The modules of the package by name. -/
def modNamed : String → Option Mod
  | "zope.security" => some .pkg
  | "zope.security._compat" => some .compat
  | "zope.security._definitions" => some .defs
  | "zope.security._proxy" => some .cproxy
  | "zope.security._zope_security_checker" => some .cchecker
  | "zope.security.adapter" => some .adapter
  | "zope.security.checker" => some .checker
  | "zope.security.decorator" => some .decorator
  | "zope.security.i18n" => some .i18n
  | "zope.security.interfaces" => some .interfaces
  | "zope.security.management" => some .management
  | "zope.security.metaconfigure" => some .metaconfigure
  | "zope.security.metadirectives" => some .metadirectives
  | "zope.security.permission" => some .permission
  | "zope.security.protectclass" => some .protectclass
  | "zope.security.proxy" => some .proxy
  | "zope.security.simplepolicies" => some .simplepolicies
  | "zope.security.testing" => some .testing
  | "zope.security.zcml" => some .zcml
  | _ => none

/-- The text of the modules written in Python. -/
def source : Mod → List Top
  | .i18n => Src.i18n
  | .compat => Src.compat
  | .interfaces => Src.interfaces
  | .defs => Src.definitions
  | .proxy => Src.proxy
  | .checker => Src.checker
  | .decorator => Src.decorator
  | .simplepolicies => Src.simplepolicies
  | .management => Src.management
  | .permission => Src.permission
  | .protectclass => Src.protectclass
  | .zcml => Src.zcml
  | .testing => Src.testing
  | .adapter => Src.adapter
  | .metaconfigure => Src.metaconfigure
  | .metadirectives => Src.metadirectives
  | .pkg => Src.init
  | .cproxy => []
  | .cchecker => []

/-- The name a line binds. -/
def binds : Stmt → Option String
  | .const x _ => some x
  | .new x _ _ => some x
  | .static x => some x
  | .alias x _ => some x
  | .getOf x _ => some x
  | .notOf x _ => some x
  | .frm _ _ x => some x
  | .attr _ _ x => some x
  | .sub _ x => some x
  | .tryFrm _ _ x _ => some x
  | _ => none

/-- The names of C73 in a module. -/
def known (m : Mod) : List String := (Imp.body false false m).filterMap fun l => binds l.stmt

/-- The values that come from the environment. -/
def given (pure watch : Bool) : String → Option Bool
  | "PURE_PYTHON" => some pure
  | "WATCH_CHECKERS" => some watch
  | _ => none

mutual

/-- The names a statement reads. -/
def reads1 : Top → List String
  | .imp _ => []
  | .frm _ _ _ => []
  | .assign _ _ u => u
  | .make _ u => u
  | .setattr x _ u => x :: u
  | .store x u => x :: u
  | .del _ => []
  | .ite _ a b => readsIn a ++ readsIn b
  | .tryexc a _ h b => readsIn a ++ readsIn h ++ readsIn b
  | .work u _ => u

/-- All names read by statements. -/
def readsIn : List Top → List String
  | [] => []
  | t :: r => reads1 t ++ readsIn r

end

/-- Each once. -/
def once : List String → List String
  | [] => []
  | x :: r => x :: (once r).filter (· ≠ x)

/-- The modules of the package by the name after `from zope.security import`. -/
def subNamed : String → Option Mod
  | "interfaces" => some .interfaces
  | "proxy" => some .proxy
  | "checker" => some .checker
  | "management" => some .management
  | "permission" => some .permission
  | "decorator" => some .decorator
  | "simplepolicies" => some .simplepolicies
  | "protectclass" => some .protectclass
  | "adapter" => some .adapter
  | "zcml" => some .zcml
  | "testing" => some .testing
  | "metaconfigure" => some .metaconfigure
  | "metadirectives" => some .metadirectives
  | "i18n" => some .i18n
  | "_compat" => some .compat
  | "_definitions" => some .defs
  | "_proxy" => some .cproxy
  | "_zope_security_checker" => some .cchecker
  | _ => none

/-- A statement that only reads. -/
def reading (ks uses : List String) (g : List (String × Bool)) : List Line :=
  let u := uses.filter (· ∈ ks)
  if u = [] then [] else [⟨g, .work u⟩]

mutual

/-- The lines for a statement under the conditions `g`; `ks` are the names that matter, `ms` those that stand for
modules.  Imports from outside the package are left out, as is what depends on other conditions than flags. -/
def line1 (pure watch : Bool) (ks ms : List String) (g : List (String × Bool)) : Top → List Line
  | .imp m =>
    match modNamed m with
    | some t => [⟨g, .imp t⟩]
    | none => []
  | .frm m n x =>
    match modNamed m with
    | some .pkg =>
      match subNamed n with
      | some t => [⟨g, .sub t x⟩]
      | none => [⟨g, .frm .pkg n x⟩]
    | some t => [⟨g, .frm t n x⟩]
    | none => []
  | .assign x v u =>
    if x ∈ ks then
      match given pure watch x with
      | some b => [⟨g, .const x b⟩]
      | none =>
        match v with
        | .name y => [⟨g, .alias x y⟩]
        | .not y => [⟨g, .notOf x y⟩]
        | .bool b => [⟨g, .const x b⟩]
        | .attr y "get" => [⟨g, .getOf x y⟩]
        | _ => [⟨g, .new x x (u.filter (· ∈ ks))⟩]
    else reading ks u g
  | .make x u => if x ∈ ks then [⟨g, .new x x (u.filter (· ∈ ks))⟩] else reading ks u g
  | .setattr x n u =>
    if x ∈ ms then u.map fun y => ⟨g, .setattr x n y⟩
    else if x ∈ ks then [⟨g, .fill x x (u.filter (· ∈ ks))⟩] else reading ks u g
  | .store x u => if x ∈ ks then [⟨g, .fill x x (u.filter (· ∈ ks))⟩] else reading ks u g
  | .del x => if x ∈ ks then [⟨g, .del x⟩] else []
  | .ite c a b =>
    match c with
    | .name f => lines pure watch ks ms (g ++ [(f, true)]) a ++ lines pure watch ks ms (g ++ [(f, false)]) b
    | .not f => lines pure watch ks ms (g ++ [(f, false)]) a ++ lines pure watch ks ms (g ++ [(f, true)]) b
    | .other _ => []
  | .tryexc a types h b =>
    match a, types, h, b with
    | [.imp m], ["ImportError", "AttributeError"], [.assign f (.bool false) []], [] =>
      match modNamed m with
      | some t => [⟨g, .tryImp t f⟩]
      | none => []
    | [.frm m n x], ["ImportError", "AttributeError"], [.assign f (.bool false) []], [] =>
      match modNamed m with
      | some t => [⟨g, .tryFrm t n x f⟩]
      | none => []
    | a, ["ImportError"], h, b => [⟨g, .optional (once ((readsIn a ++ readsIn h ++ readsIn b).filter (· ∈ ks)))⟩]
    | _, _, _, _ => []
  | .work u _ => reading ks u g

/-- The lines for some statements. -/
def lines (pure watch : Bool) (ks ms : List String) (g : List (String × Bool)) : List Top → List Line
  | [] => []
  | t :: r => line1 pure watch ks ms g t ++ lines pure watch ks ms g r

end

/-- The lines of a module, from its text. -/
def srcLines (pure watch : Bool) (m : Mod) : List Line :=
  lines pure watch (known m) ((Imp.body false false m).filterMap fun l => match l.stmt with | .sub _ x => some x | _ => none) [] (source m)

/-- Names of the model for the places where objects are kept that have no name of their own. -/
def places : List String :=
  ["CheckerPublic.type", "CheckerPublic.checker.type", "NamesChecker.permission_id", "InterfaceChecker.permission_id", "CombinedChecker.base",
   "WatchingChecker.base", "_default_checkers[Proxy]"]

/-- A line that stands for a statement: not an import from outside, not one of the places, and not the content of the
registry, which is filled by a function (`_clear`). -/
def isReal (l : Line) : Bool :=
  match l.stmt with
  | .work [] => false
  | .alias x _ => decide (x ∉ places)
  | .fill "_checkers" _ _ => false
  | _ => true

/-- Without the labels of new objects. -/
def bare : Line → Line
  | ⟨g, .new x _ u⟩ => ⟨g, .new x x u⟩
  | ⟨g, .fill x _ u⟩ => ⟨g, .fill x x u⟩
  | l => l

end ZS.Top
