import Verif.Model.Proxy

/-!
# `Global` objects and the pickling of security proxies

Models `Global` (checker.py:325-345).  What the standard library's pickler does with an object that is not one of its own
types is modelled after `save`, `save_global`, `whichmodule` and `find_class` of CPython's `_pickle.c`; no part of
it is in the repository.  For what the pickler goes on to do with a genuine tuple see `Saved.reduced`.
-/

namespace ZS
variable {A : Type}

/-- What an instance of `Global` made with `Global(name, modul)` does: the two instance attributes
set by `__init__` (checker.py:333-338), `__reduce__` (340-341) and `__repr__` (343-345).  The instance is object `o`, its bound
method `__reduce__` is object `m`. -/
def globalDoes (o m : Nat) (name modul : String) : RawOp → Option (Res Val)
  | .getattr (.obj k) n =>
    if k = o then
      if n = "__name__" then some (.ok (.str 1 name))
      else if n = "__module__" then some (.ok (.str 2 modul))
      else if n = "__reduce__" then some (.ok (.obj m))
      else none
    else if k = m ∧ n = "__Security_checker__" then some (.err (.attributeError n))
    else none
  | .special n (.obj k) [] =>
    if k = m ∧ n = "__call__" then some (.ok (.str 1 name))
    else if k = o ∧ n = "__repr__" then some (.ok (.str 3 ("Global(" ++ name ++ "," ++ modul ++ ")")))
    else none
  | _ => none

/-- A world in which object `o` is a `Global`. -/
def World.withGlobal (W : World A) (o m : Nat) (name modul : String) : World A :=
  { W with
    objType := fun k => if k = m then "method" else if k = o then "Global" else W.objType k
    isExc := fun v => if v = .obj m ∨ v = .obj o then false else W.isExc v
    apply := fun r s =>
      match globalDoes o m name modul r with
      | some x => (x, s)
      | none => W.apply r s }

/-- What the pickler knows: the objects to be found in modules under a (possibly dotted) name, the loaded
modules, which objects are tuples or instances of a subclass of `str`, and the protocol. -/
structure Pickler where
  globals : String → String → Option Val
  loaded : List String
  isTup : Nat → Bool
  subText : Nat → Option String
  proto : Nat

/-- `PyUnicode_Check` and the characters.  The test is for the real type; a proxy is not a `str`. -/
def Pickler.text (K : Pickler) : Val → Option String
  | .str _ t => some t
  | .obj o => K.subText o
  | _ => none

/-- `PyTuple_Check`, again of the real type. -/
def Pickler.isTuple (K : Pickler) : Val → Bool
  | .obj o => K.isTup o
  | _ => false

/-- What becomes of an object: a reference by module and name; the tuple returned by `__reduce_ex__` or
`__reduce__`, whose elements are then saved; or a `PicklingError`. -/
inductive Saved where
  | byName (modul name : String)
  | reduced (rv : Val)
  | refused
  deriving DecidableEq, Repr

/-- `PyObject_GetOptionalAttr`: an AttributeError means that there is none. -/
def lookAttr (X : Ctx A) (p : Val) (n : Name) : M A (Option Val) :=
  M.tryCatch (do let v ← pop X p (.getattr n false); pure (some v)) Exn.isAttr (fun _ => pure none)

/-- Calling what was found. -/
def callFound (X : Ctx A) (f : Val) (args : List Val) : M A Val :=
  if f.isProxy then pop X f (.call args) else perform X (.special "__call__" f args)

/-- `save`: `__reduce_ex__(proto)`, or else `__reduce__()`. -/
def reduceValue (X : Ctx A) (K : Pickler) (p : Val) : M A (Option Val) := do
  match ← lookAttr X p "__reduce_ex__" with
  | some f => do
    let v ← callFound X f [.int K.proto]
    pure (some v)
  | none =>
    match ← lookAttr X p "__reduce__" with
    | some f => do
      let v ← callFound X f []
      pure (some v)
    | none => pure none

/-- `whichmodule`: the `__module__`, or a loaded module in which the object is found. -/
def whichModule (X : Ctx A) (K : Pickler) (p : Val) (name : String) : M A String := do
  match ← lookAttr X p "__module__" with
  | some .none | none => pure ((K.loaded.find? fun m => K.globals m name = some p).getD "__main__")
  | some v =>
    match K.text v with
    | some m => pure m
    | none => M.throw .typeError

/-- `save_global`: what is found under the name must be the object itself. -/
def saveGlobal (X : Ctx A) (K : Pickler) (p : Val) (name : String) : M A Saved := do
  let m ← whichModule X K p name
  pure (if K.globals m name = some p then .byName m name else .refused)

/-- `save` of a security proxy. -/
def save (X : Ctx A) (K : Pickler) (p : Val) : M A Saved := do
  match ← reduceValue X K p with
  | none => pure .refused
  | some rv =>
    match K.text rv with
    | some name => saveGlobal X K p name
    | none => pure (if K.isTuple rv then .reduced rv else .refused)

/-- `find_class` when a reference by name is read again. -/
def Pickler.load (K : Pickler) : Saved → Option Val
  | .byName m n => K.globals m n
  | _ => none

end ZS
