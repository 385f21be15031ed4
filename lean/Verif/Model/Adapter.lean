import Verif.Model.Proxy

/-!
# Trusted and untrusted adapter factories (adapter.py)

Whether an object provides `ILocation` is a question to zope.interface and is taken from the
world.  The class of location proxies is zope.location's; what matters here is that it is a
decorator (decorator.py:72-81) that keeps `__parent__` itself.
-/

namespace ZS
variable {A : Type}

/-- The class of location proxies. -/
def locationProxy : String := "LocationProxy"

/-- `v.__parent__`. -/
def readParent (X : Ctx A) (v : Val) : M A Val :=
  match v with
  | .proxy id w c => pop X (.proxy id w c) (.getattr "__parent__" false)
  | .deco id cls inner =>
    if cls = locationProxy then do
      let s ← M.get
      pure (s.parents id)
    else probe X (.getattr (.deco id cls inner) "__parent__")
  | v => probe X (.getattr v "__parent__")

/-- `id.__parent__ = x` on a location proxy. -/
def setParent (id : Nat) (x : Val) : M A Unit :=
  M.modify fun s => { s with parents := fun k => if k = id then x else s.parents k }

/-- `v.__parent__ = x`. -/
def writeParent (X : Ctx A) (v x : Val) : M A Unit :=
  match v with
  | .proxy id w c => do
    let _ ← pop X (.proxy id w c) (.setattr "__parent__" x)
    pure ()
  | .deco id cls inner =>
    if cls = locationProxy then setParent id x
    else do
      let _ ← probe X (.setattr (.deco id cls inner) "__parent__" x)
      pure ()
  | v => do
    let _ ← probe X (.setattr v "__parent__" x)
    pure ()

/-- `LocationProxy(v)`: a new one, without parent. -/
def newLocationProxy (v : Val) : M A Nat := do
  let s ← M.get
  M.modify fun s => { s with nextId := s.nextId + 1, parents := fun k => if k = s.nextId then .none else s.parents k }
  let _ := v
  pure s.nextId

/-- Give a located object the parent if it has none (adapter.py:39-45, 76-78). -/
def adopt (X : Ctx A) (adapter parent : Val) : M A Val := do
  let p ← readParent X adapter
  if p = .none then do
    writeParent X adapter parent
    pure adapter
  else pure adapter

/-- `assertLocation` (adapter.py:24-45). -/
def assertLocation (X : Ctx A) (adapter parent : Val) : M A Val :=
  if X.W.isLoc adapter then adopt X adapter parent
  else do
    let id ← newLocationProxy adapter
    setParent id parent
    pure (.deco id locationProxy adapter)

/-- `_customizeUnprotected` (adapter.py:75-78). -/
def customizeUnprotected (X : Ctx A) (adapter context : Val) : M A Val :=
  if X.W.isLoc adapter then adopt X adapter context else pure adapter

/-- `_customizeProtected` of `LocatingTrustedAdapterFactory` (adapter.py:72-73) and of
`TrustedAdapterFactory` (adapter.py:108-109). -/
def customizeProtected (X : Ctx A) (locating : Bool) (adapter context : Val) : M A Val :=
  if locating then assertLocation X adapter context else customizeUnprotected X adapter context

/-- `args[0]`. -/
def firstArg : List Val → M A Val
  | [] => M.throw .indexError
  | a :: _ => pure a

/-- The branch of `LocatingTrustedAdapterFactory.__call__` for arguments among which there is a
proxied one (adapter.py:83-86). -/
def trustedProtected (X : Ctx A) (locating : Bool) (f : Val) (args : List Val) : M A Val := do
  let s ← M.get
  let raw := args.map (removeProxy X s)
  let adapter ← perform X (.call f raw)
  let context ← firstArg raw
  let adapter ← customizeProtected X locating adapter context
  proxyFactory X adapter .none

/-- The other branch (adapter.py:88-90). -/
def trustedBare (X : Ctx A) (f : Val) (args : List Val) : M A Val := do
  let adapter ← perform X (.call f args)
  let context ← firstArg args
  customizeUnprotected X adapter context

/-- `LocatingTrustedAdapterFactory.__call__` and `TrustedAdapterFactory.__call__`
(adapter.py:80-90). -/
def trustedCall (X : Ctx A) (locating : Bool) (f : Val) (args : List Val) : M A Val := do
  let s ← M.get
  if ∃ a ∈ args, removeProxy X s a ≠ a then trustedProtected X locating f args
  else trustedBare X f args

/-- `LocatingUntrustedAdapterFactory.__call__` (adapter.py:134-136). -/
def untrustedCall (X : Ctx A) (f : Val) (args : List Val) : M A Val := do
  let adapter ← perform X (.call f args)
  let context ← firstArg args
  assertLocation X adapter context

end ZS
