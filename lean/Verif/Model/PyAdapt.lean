import Verif.Model.PyRead
import Verif.Model.Adapter
import Verif.Model.Testing
import Verif.Model.Permission
import Verif.Source.Adapter
import Verif.Source.Testing
import Verif.Source.Decorator

/-!
# What the names in the source of adapters, decorators and testing mean

`adaptLang` is the language of adapter.py.  The factory a method is called on is `self`; its attribute `factory` is given, and its methods are
those of its class, run from their source, up to a depth.  `decoLang` is the language of decorator.py, `testLang` that of testing.py.  All are
`lang X own` but for the names those files import.
-/

namespace ZS.PyC
open ZS
variable {A : Type}

/-! ## adapter.py -/

/-- The values of the model among the arguments of a call. -/
def valsOf : List PV → Option (List Val)
  | [] => some []
  | .v x :: r => (valsOf r).map (x :: ·)
  | _ :: _ => none

/-- Reading a global name. -/
def aglob (n : Name) : M A PV :=
  if n = "ILocation" then pure (.sym n)
  else if n = "LocationProxy" then pure (.sym n)
  else if n = "assertLocation" then pure (.sym n)
  else lglob n

/-- `x.__parent__`. -/
def agetattr (X : Ctx A) (o : PV) (n : Name) : M A PV :=
  match o with
  | .v x => if n = "__parent__" then val (readParent X x) else stuck
  | _ => stuck

/-- `x.__parent__ = y`. -/
def asetattr (X : Ctx A) (o : PV) (n : Name) (y : PV) : M A Unit :=
  match o, y with
  | .v x, .v y => if n = "__parent__" then writeParent X x y else stuck
  | _, _ => stuck

/-- `args[0]`. -/
def agetitem (x i : PV) : M A PV :=
  match x, i with
  | .list (y :: _), .v (.int n) => if n = 0 then pure y else stuck
  | .tuple (y :: _), .v (.int n) => if n = 0 then pure y else stuck
  | .list [], .v (.int n) => if n = 0 then M.throw .indexError else stuck
  | .tuple [], .v (.int n) => if n = 0 then M.throw .indexError else stuck
  | _, _ => stuck

/-- The items of `args`. -/
def aiter (x : PV) : M A (List PV) :=
  match x with
  | .list l => pure l
  | .tuple l => pure l
  | _ => stuck

/-- Calling a function or class.  `LocationProxy` is zope.location's class. -/
def acall (X : Ctx A) (f : PV) (args : List PV) (kws : List (Name × PV)) : M A PV :=
  match f with
  | .sym f =>
    if f = "LocationProxy" then
      match args with
      | [.v x] => do
        let id ← newLocationProxy x
        pure (.v (.deco id locationProxy x))
      | _ => stuck
    else if f = "assertLocation" then
      match args with
      | [.v x, .v y] => val (assertLocation X x y)
      | _ => stuck
    else lcall X own (.sym f) args kws
  | f => lcall X own f args kws

/-- The methods of a class and of its base classes, in the order in which they are looked up. -/
abbrev Methods := List (Name × Fn)

/-- The method of a name. -/
def findMethod : Methods → Name → Option Fn
  | [], _ => none
  | (k, f) :: r, n => if k = n then some f else findMethod r n

/-- The methods of a trusted adapter factory: `TrustedAdapterFactory` is derived from `LocatingTrustedAdapterFactory` (adapter.py:93). -/
def trustedMethods (locating : Bool) : Methods :=
  if locating then Src.Adapter.LocatingTrustedAdapterFactory.methods
  else Src.Adapter.TrustedAdapterFactory.methods ++ Src.Adapter.LocatingTrustedAdapterFactory.methods

/-- The methods of an untrusted one. -/
def untrustedMethods : Methods := Src.Adapter.LocatingUntrustedAdapterFactory.methods

/-- `self.m(*args)`.  `go` runs a method. -/
def dispatch (ms : Methods) (go : Fn → List PV → M A PV) (m : Name) (args : List PV) : M A PV :=
  match findMethod ms m with
  | some g => go g (.sym "self" :: args)
  | none => M.throw (.attributeError m)

/-- `o.m(*args)`.  `go` runs a method. -/
def amethod (X : Ctx A) (ms : Methods) (f : Val) (go : Fn → List PV → M A PV) (o : PV) (m : Name) (args : List PV)
    (_ : List (Name × PV)) : M A PV :=
  match o with
  | .sym c =>
    if c = "self" then
      if m = "factory" then
        match valsOf args with
        | some l => val (perform X (.call f l))
        | none => stuck
      else
        dispatch ms go m args
    else if c = "ILocation" ∧ m = "providedBy" then
      match args with
      | [.v x] => pure (.v (.bool (X.W.isLoc x)))
      | _ => stuck
    else stuck
  | _ => stuck

/-- The language of adapter.py, where the factory has the methods `ms` and adapts with `f`, and methods are run by `go`. -/
def adaptWith (X : Ctx A) (ms : Methods) (f : Val) (go : Fn → List PV → M A PV) : Lang A :=
  { lang X own with
    glob := aglob
    getattr := agetattr X
    setattr := asetattr X
    getitem := agetitem
    iter := aiter
    call := acall X
    method := amethod X ms f go }

/-- The language in which methods may call others, `k` deep. -/
def adaptLang (X : Ctx A) (ms : Methods) (f : Val) : Nat → Lang A
  | 0 => adaptWith X ms f fun _ _ => stuck
  | k + 1 => adaptWith X ms f fun g args => run (adaptLang X ms f k) g args

/-- Calling a factory: its method `__call__`, found in its class. -/
def callFactoryObject (X : Ctx A) (ms : Methods) (f : Val) (args : List Val) : M A PV :=
  dispatch ms (fun g l => run (adaptLang X ms f 2) g l) "__call__" (args.map .v)

/-! ## Constructors of adapter.py and testing.py -/

/-- Reading an attribute of a value passed to a constructor. -/
def igetattr (X : Ctx Attrs) (o : PV) (n : Name) : M Attrs PV :=
  match o with
  | .v x => val (probe X (.getattr x n))
  | .sym c => if c = "interfaces" then pure (.sym n) else stuck
  | _ => stuck

/-- `interface.directlyProvides(self, …)`. -/
def imethod (o : PV) (m : Name) (_ : List PV) (_ : List (Name × PV)) : M Attrs PV :=
  match o with
  | .sym c => if c = "interface" ∧ m = "directlyProvides" then pure (.v .none) else stuck
  | _ => stuck

/-- Reading a global name. -/
def iglob (n : Name) : M Attrs PV := if n = "interface" ∨ n = "interfaces" then pure (.sym n) else stuck

/-- The language of those constructors: `self` is the object under construction. -/
def initLang (X : Ctx Attrs) : Lang Attrs :=
  { lang X own with glob := iglob, getattr := igetattr X, setattr := osetattr, method := imethod }

/-! ## decorator.py -/

/-- The object a decorator decorates. -/
def decoInner : Val → Option Val
  | .deco _ _ inner => some inner
  | _ => none

/-- Calling a function: `getProxiedObject` of zope.proxy, and `getattr(o, '__Security_checker__', None)`. -/
def ccall (X : Ctx A) (f : PV) (args : List PV) (kws : List (Name × PV)) : M A PV :=
  match f, args with
  | .sym f, [.v x] =>
    if f = "getProxiedObject" then
      match decoInner x with
      | some y => pure (.v y)
      | none => stuck
    else lcall X own (.sym f) [.v x] kws
  | f, args => lcall X own f args kws

/-- The name of the class of the decorated object, for a message. -/
def cgetattr (o : PV) (n : Name) : M A PV :=
  match o with
  | .v x => if n = "__class__" then pure (.bound (.v x) n) else stuck
  | .bound (.v _) _ => if n = "__name__" then pure (.v (.str 0 "class name")) else stuck
  | _ => stuck

/-- `"%r has no attribute %r" % (c, n)`, as the name an AttributeError is about. -/
def cbin (op : String) (x y : PV) : M A PV :=
  match op, x, y with
  | "%", .v (.str _ "%r has no attribute %r"), .tuple [_, .v (.str _ n)] => pure (.v (.str 0 n))
  | _, _, _ => stuck

/-- The language of decorator.py. -/
def decoLang (X : Ctx A) : Lang A :=
  { lang X own with call := ccall X, getattr := cgetattr, bin := cbin }

/-! ## testing.py -/

/-- Names of testing.py. -/
def testSymbols : List Name := ["Principal", "Participation", "zope", "create_interaction", "%body"]

/-- Reading a global name. -/
def tglob (n : Name) : M A PV := if n ∈ testSymbols then pure (.sym n) else stuck

/-- `zope.security.management`. -/
def tgetattr (o : PV) (n : Name) : M A PV :=
  match o with
  | .sym c =>
    if c = "zope" ∧ n = "security" then pure (.sym "zope.security")
    else if c = "zope.security" ∧ n = "management" then pure (.sym "zope.security.management")
    else stuck
  | _ => stuck

/-- Calling a function or class of testing.py.  A principal is known by its id: the keyword arguments are its title, description and groups. -/
def tcall (X : Ctx A) (body : Option Principal → M A Val) (f : PV) (args : List PV) (_ : List (Name × PV)) : M A PV :=
  match f, args with
  | .sym f, [.v (.str _ id)] =>
    if f = "Principal" then pure (.user (.user id))
    else if f = "create_interaction" then do
      let p ← createInteraction X id
      pure (.user p)
    else stuck
  | .sym f, [.user p] =>
    if f = "Participation" then do
      let q ← newParticipation p
      pure (.part q)
    else if f = "%body" then val (body (some p))
    else stuck
  | .sym f, [.v .none] => if f = "%body" then val (body none) else stuck
  | _, _ => stuck

/-- The functions of management.py. -/
def tmethod (X : Ctx A) (o : PV) (m : Name) (args : List PV) (_ : List (Name × PV)) : M A PV :=
  match o, args with
  | .sym c, [] =>
    if c = "zope.security.management" then
      if m = "queryInteraction" then val (queryInteraction X)
      else if m = "endInteraction" then unit (endInteraction X)
      else stuck
    else stuck
  | .sym c, [.part p] =>
    if c = "zope.security.management" ∧ m = "newInteraction" then unit (newInteraction X [p]) else stuck
  | _, _ => stuck

/-- The language of testing.py; `body` is the body of the `with` statement. -/
def testLang (X : Ctx A) (body : Option Principal → M A Val) : Lang A :=
  { lang X own with glob := tglob, getattr := tgetattr, call := tcall X body, method := tmethod X }

/-- What `addCheckerPublic` works on: the permission utilities of the global site manager and the attribute `id` of permission objects. -/
structure Shop where
  utilities : Utilities
  ids : Nat → PV

/-- Names of testing.py. -/
def sglob (n : Name) : M Shop PV :=
  if n = "PUBLIC_PERMISSION_NAME" then pure (.v publicPermission)
  else if n ∈ ["Permission", "component", "interfaces"] then pure (.sym n)
  else stuck

/-- `interfaces.IPermission` and `perm.id`. -/
def sgetattr (o : PV) (n : Name) : M Shop PV :=
  match o with
  | .sym c => if c = "interfaces" then pure (.sym n) else stuck
  | .v (.obj o) =>
    if n = "id" then do
      let s ← M.get
      pure (s.app.ids o)
    else stuck
  | _ => stuck

/-- `Permission(id, title, description)`: a new object. -/
def scall (f : PV) (args : List PV) (_ : List (Name × PV)) : M Shop PV :=
  match f, args with
  | .sym f, [i, _, _] =>
    if f = "Permission" then do
      let s ← M.get
      M.modify fun s => { s with nextId := s.nextId + 1, app := { s.app with ids := fun k => if k = s.nextId then i else s.app.ids k } }
      pure (.v (.obj s.nextId))
    else stuck
  | _, _ => stuck

/-- `registerUtility(perm, IPermission, name)` of the global site manager. -/
def smethod (o : PV) (m : Name) (args : List PV) (_ : List (Name × PV)) : M Shop PV :=
  match o, args with
  | .sym c, [] => if c = "component" ∧ m = "getGlobalSiteManager" then pure (.sym m) else stuck
  | .sym c, [.v (.obj o), .sym i, .v (.str _ n)] =>
    if c = "getGlobalSiteManager" ∧ m = "registerUtility" ∧ i = "IPermission" then do
      M.modify fun s => { s with app := { s.app with utilities := (n, o) :: s.app.utilities } }
      pure (.v .none)
    else stuck
  | _, _ => stuck

/-- The language of `addCheckerPublic`. -/
def shopLang (X : Ctx Shop) : Lang Shop :=
  { lang X own with glob := sglob, getattr := sgetattr, call := scall, method := smethod }

end ZS.PyC
