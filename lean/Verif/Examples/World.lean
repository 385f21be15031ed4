import Verif.Model.Initial
import Verif.Model.Access
import Verif.Model.Management
import Verif.Model.Protect

/-!
# A small concrete world

Used only to show that the hypotheses of the theorems can be met.
-/

namespace ZS.Ex

/-- No zope.interface names. -/
def ext : Ext := ⟨[], [], []⟩

/-- A world with a few objects: object 1 is a plain application object, object 2 is iterable,
object 3 is an exception, object 4 is a list.  Attribute `__iter__` exists only on object 2,
nobody has `__Security_checker__`, foreign interaction 50 says yes to permission string
"view" and no to everything else, foreign interaction 51 raises. -/
def W : World Unit where
  objType := fun o => if o = 4 then "list" else if o = 3 then "MyError" else "Thing"
  metaType := fun _ => "type"
  isExc := fun v => v == .obj 3
  isInst := fun v c => v == .obj 1 && c == "Thing"
  truth := fun _ => true
  strSub := fun v => v == .obj 9
  addr := fun _ => "0x1"
  isLoc := fun v => v == .obj 2
  apply := fun r s =>
    match r with
    | .getattr (.obj 2) "__iter__" => (.ok (.fn 3), s)
    | .getattr _ "__iter__" => (.err (.attributeError "__iter__"), s)
    | .getattr _ "__Security_checker__" => (.err (.attributeError "__Security_checker__"), s)
    | .getattr _ "__class__" => (.ok (.type "Thing"), s)
    | .getattr _ "__name__" => (.ok (.str 0 "Thing"), s)
    | .getattr _ "__module__" => (.ok (.str 0 "mod"), s)
    | .getattr _ "secret" => (.ok (.obj 5), s)
    | .method (.obj 50) "checkPermission" (.str _ "view" :: _) => (.ok (.bool true), s)
    | .method (.obj 50) "checkPermission" _ => (.ok (.bool false), s)
    | .method (.obj 51) "checkPermission" _ => (.err (.other 1), s)
    | .compare _ _ _ => (.ok (.obj 6), s)
    | .special "__str__" _ _ => (.ok (.str 0 "hello"), s)
    | .inplace _ (.obj l) _ => (.ok (.obj l), s)
    | .binop _ _ _ => (.ok (.int 3), s)
    | _ => (.ok (.obj 7), s)

/-- Running in thread 0. -/
def X (impl : Impl) : Ctx Unit := ⟨W, impl, 0, 5, 3⟩

/-- The initial state. -/
def s0 : St Unit := initial ext ()

/-- A permission. -/
def view : Val := .str 1 "view"
/-- Another permission. -/
def edit : Val := .str 2 "edit"

/-- A state with permission dictionary 30 = {"a": public, "b": view, "c": edit, "n": None},
dictionary 31 = {"w": view}, and an interaction in thread 0. -/
def s1 (ix : Option Val) : St Unit :=
  { s0 with
    dicts := fun k =>
      if k = 30 then [("a", publicV), ("b", view), ("c", edit), ("n", .none)]
      else if k = 31 then [("w", view)] else s0.dicts k
    threads := fun t => if t = 0 then ⟨ix, none⟩ else ⟨none, none⟩ }

/-- A checker on those dictionaries. -/
def c1 : Val := .checker 60 30 31

end ZS.Ex
