import Verif.Model.PyRead
import Verif.Model.PyWatch
import Verif.Source.Proxy
import Verif.Source.Metaconfigure

/-!
# What the names mean in the remaining functions

Making a proxy, `zope.security.proxy.isinstance` and `getTestProxyItems`, the class `Global`, and the directive `factory`.
-/

namespace ZS.PyC
open ZS
variable {A : Type}

/-! ## Making a proxy (proxy.py:82-92) -/

/-- Methods of the base class of proxies: a blank instance, and an assignment that is not checked. -/
def bmethod (o : PV) (m : Name) (args : List PV) (_ : List (Name × PV)) : M Attrs PV :=
  match o, args with
  | .sup (.sym c), [.sym d] => if c = "ProxyPy" ∧ m = "__new__" ∧ d = "ProxyPy" then pure (.sym "self") else stuck
  | .sup o, [.v (.str _ n), x] =>
    if m = "__setattr__" then do
      osetattr o n x
      pure (.v .none)
    else stuck
  | _, _ => stuck

/-- The language of `ProxyPy.__setattr__` on an instance under construction. -/
def slotLang (X : Ctx Attrs) : Lang Attrs := { lang X own with method := bmethod }

/-- An assignment to an attribute of the instance: `ProxyPy.__setattr__`, from source. -/
def makeSetattr (X : Ctx Attrs) (o : PV) (n : Name) (x : PV) : M Attrs Unit := do
  let _ ← run (slotLang X) Src.Proxy.ProxyPy.__setattr__ [o, .v (.str 0 n), x]
  pure ()

/-- The language of the constructors. -/
def makeLang (X : Ctx Attrs) : Lang Attrs := { lang X own with setattr := makeSetattr X, method := bmethod }

/-- `ProxyPy(v, c)`: `__new__`, then `__init__`. -/
def construct (X : Ctx Attrs) (v c : Val) : M Attrs PV := do
  let i ← run (makeLang X) Src.Proxy.ProxyPy.__new__ [.sym "ProxyPy", .v v, .v c]
  let _ ← run (makeLang X) Src.Proxy.ProxyPy.__init__ [i, .v v, .v c]
  pure i

/-- The proxy with those attributes. -/
def proxyWith (id : Nat) (a : Attrs) : Option Val :=
  match Env.get? a "_wrapped", Env.get? a "_checker" with
  | some (.v w), some (.v c) => some (.proxy id w c)
  | _, _ => none

/-- `ProxyPy(v, c)` as a new object. -/
def sourceProxy (X : Ctx Attrs) (v c : Val) : M A Val := fun s =>
  match construct X v c { s with app := [] } with
  | (.ok _, s') =>
    match proxyWith s'.nextId s'.app with
    | some p => (.ok p, { s' with app := s.app, nextId := s'.nextId + 1 })
    | none => (.diverge, s)
  | (.err e, s') => (.err e, { s' with app := s.app })
  | (.diverge, _) => (.diverge, s)

/-! ## Functions of proxy.py -/

/-- `_builtin_isinstance` asks the world; `sorted` of pairs that begin with a name. -/
def rcall (X : Ctx A) (f : PV) (args : List PV) (kws : List (Name × PV)) : M A PV :=
  match f, args with
  | .sym f, [.v x, .sym c] => if f = "_builtin_isinstance" then pure (.v (.bool (X.W.isInst x c))) else lcall X own (.sym f) [.v x, .sym c] kws
  | .sym f, [.list l] => if f = "sorted" then pure (.list (l.mergeSort inOrder)) else stuck
  | f, args => lcall X own f args kws

/-- `d.items()`. -/
def rmethod (X : Ctx A) (o : PV) (m : Name) (args : List PV) (kws : List (Name × PV)) : M A PV :=
  match o with
  | .dict d =>
    if m = "items" then do
      let s ← M.get
      pure (.list ((s.dicts d).map fun p => .tuple [.v (.str 0 p.1), .v p.2]))
    else stuck
  | o => lmethod X own o m args kws

/-- Names of proxy.py. -/
def rglob (n : Name) : M A PV := if n = "sorted" then pure (.sym n) else lglob n

/-- The language of `isinstance` and `getTestProxyItems`. -/
def restLang (X : Ctx A) : Lang A := { lang X own with glob := rglob, call := rcall X, method := rmethod X }

/-! ## `Global` (checker.py:325-345) -/

/-- The name `sys`. -/
def gglob (n : Name) : M Attrs PV := if n = "sys" then pure (.sym n) else stuck

/-- Reading an attribute: of the instance, of its class, or of the calling frame. -/
def ggetattr (o : PV) (n : Name) : M Attrs PV :=
  match o with
  | .sym c =>
    if c = "self" then
      if n = "__class__" then pure (.sym "Global")
      else do
        let s ← M.get
        match Env.get? s.app n with
        | some x => pure x
        | none => M.throw (.attributeError n)
    else if c = "Global" ∧ n = "__name__" then pure (.v (.str 0 "Global"))
    else if c = "frame" ∧ n = "f_locals" then pure (.sym "f_locals")
    else stuck
  | _ => stuck

/-- The texts of values. -/
def textsOf : List PV → Option (List String)
  | [] => some []
  | .v (.str _ t) :: r => (textsOf r).map (t :: ·)
  | _ :: _ => none

/-- A template filled with texts. -/
def fillText : List Piece → List String → Option String
  | [], [] => some ""
  | .lit t :: r, l => (fillText r l).map (t ++ ·)
  | .str :: r, t :: l => (fillText r l).map (t ++ ·)
  | _, _ => none

/-- `sys._getframe(1)` is the frame of the module that makes the object; `format` fills a template. -/
def gmethod (o : PV) (m : Name) (args : List PV) (_ : List (Name × PV)) : M Attrs PV :=
  match o with
  | .sym c => if c = "sys" ∧ m = "_getframe" then pure (.sym "frame") else stuck
  | .v (.str _ t) =>
    if m = "format" then
      match (textsOf args).bind (fillText (braces t.toList [])) with
      | some r => pure (.v (.str 0 r))
      | none => stuck
    else stuck
  | _ => stuck

/-- The local names of a module: its name. -/
def ggetitem (module : Name) (o i : PV) : M Attrs PV :=
  match o, i with
  | .sym c, .v (.str _ n) => if c = "f_locals" ∧ n = "__name__" then pure (.v (.str 0 module)) else stuck
  | _, _ => stuck

/-- The language of `Global`, called from a module of that name. -/
def globalLang (X : Ctx Attrs) (module : Name) : Lang Attrs :=
  { lang X own with glob := gglob, getattr := ggetattr, setattr := osetattr, getitem := ggetitem module, method := gmethod }

/-! ## The directive `factory` (metaconfigure.py:167-177) -/

/-- A registration requested from zope.component: a `Factory` of a class with a title and a description. -/
structure Utility where
  provides : Name
  cls : Name
  title : Val
  description : Val
  permission : Val
  name : Val
  deriving DecidableEq

/-- Attributes of the directive: the class and its dotted name. -/
def fgetattr (cls dotted : Name) (o : PV) (n : Name) : M (List Utility) PV :=
  match o with
  | .sym c =>
    if c = "self" then
      if n = "_ClassDirective__id" then pure (.v (.str 0 dotted))
      else if n = "_ClassDirective__class" then pure (.v (.type cls))
      else stuck
    else stuck
  | _ => stuck

/-- Names of metaconfigure.py. -/
def fglob (n : Name) : M (List Utility) PV :=
  if n ∈ ["Factory", "utility", "IFactory"] then pure (.sym n)
  else if n = "PublicPermission" then pure (.v publicPermission)
  else stuck

/-- `Factory(class, title, description)` of zope.component.factory, and `utility` of zope.component.zcml. -/
def fcall (f : PV) (args : List PV) (kws : List (Name × PV)) : M (List Utility) PV :=
  match f, args, kws with
  | .sym f, [x, y, z], [] => if f = "Factory" then pure (.tuple [.sym "Factory", x, y, z]) else stuck
  | .sym f, [.sym c, .sym i, .tuple [.sym g, .v (.type t), .v x, .v y]], [(k, .v p), (l, .v n)] =>
    if f = "utility" ∧ c = "_context" ∧ g = "Factory" ∧ k = "permission" ∧ l = "name" then do
      M.modify fun s => { s with app := s.app ++ [⟨i, t, x, y, p, n⟩] }
      pure (.v .none)
    else stuck
  | _, _, _ => stuck

/-- The language of the directive. -/
def factoryLang (X : Ctx (List Utility)) (cls dotted : Name) : Lang (List Utility) :=
  { lang X own with glob := fglob, getattr := fgetattr cls dotted, call := fcall }

end ZS.PyC
