import Verif.Model.Select

/-!
# The checker registry, BasicTypes and checker constructors (checker.py)
-/

namespace ZS
variable {A : Type}

/-- The registry key of a value that may be registered: `isinstance(type_, DEFINABLE_TYPES)`
(checker.py:472, 481). -/
def definable : Val → Option Key
  | .type t => some (.ty t)
  | .module m => some (.mod m)
  | _ => none

/-- `getCheckerForInstancesOf` and `moduleChecker` (checker.py:468-469, 709-717). -/
def getCheckerFor (s : St A) (k : Key) : Val := (s.reg.get? k).getD .none

/-- `defineChecker` (checker.py:475-486). -/
def defineChecker (t c : Val) : M A Unit :=
  match definable t with
  | none => M.throw .typeError
  | some k => do
    let s ← M.get
    if s.reg.mem k then M.throw (.duplication t)
    else M.modify fun s => { s with reg := s.reg.set k c }

/-- `undefineChecker` (checker.py:489-490). -/
def undefineChecker (k : Key) : M A Unit := do
  let s ← M.get
  if s.reg.mem k then M.modify fun s => { s with reg := s.reg.del k }
  else M.throw .keyError

/-- `BasicTypes[k] = v` (checker.py:757-759). -/
def basicSet (k : Key) (v : Val) : M A Unit := do
  M.modify fun s => { s with basic := s.basic.set k v }
  M.modify fun s => { s with reg := s.reg.set k v }

/-- `del BasicTypes[k]` (checker.py:761-763): two deletions, either of which may raise
`KeyError`. -/
def basicDel (k : Key) : M A Unit := do
  let s ← M.get
  if s.basic.mem k then do
    M.modify fun s => { s with basic := s.basic.del k }
    let s ← M.get
    if s.reg.mem k then M.modify fun s => { s with reg := s.reg.del k }
    else M.throw .keyError
  else M.throw .keyError

/-- `BasicTypes.clear()` (checker.py:765-767). -/
def basicClear : M A Unit := M.throw .notImplementedError

/-- `BasicTypes.update(d)` (checker.py:769-771). -/
def basicUpdate (d : PyDict Key Val) : M A Unit := do
  M.modify fun s => { s with basic := s.basic.update d }
  M.modify fun s => { s with reg := s.reg.update d }

/-- `BasicTypes.pop(k)`: inherited from `dict`, so the registry is not touched. -/
def basicPop (k : Key) : M A Unit := do
  let s ← M.get
  if s.basic.mem k then M.modify fun s => { s with basic := s.basic.del k }
  else M.throw .keyError

/-- `BasicTypes.setdefault(k, v)`: inherited from `dict`, so the registry is not touched. -/
def basicSetdefault (k : Key) (v : Val) : M A Unit := do
  let s ← M.get
  if s.basic.mem k then pure () else M.modify fun s => { s with basic := s.basic.set k v }

/-- `BasicTypes.popitem()`: inherited from `dict`, so the registry is not touched. -/
def basicPopitem : M A Unit := do
  let s ← M.get
  if s.basic.isEmpty then M.throw .keyError
  else M.modify fun s => { s with basic := s.basic.dropLast }

/-- `BasicTypes |= d`: inherited from `dict` (whose `|=` does not call `update`), so the registry is
not touched. -/
def basicIor (d : PyDict Key Val) : M A Unit :=
  M.modify fun s => { s with basic := s.basic.update d }

/-- `checker._clear` (checker.py:1076-1079). -/
def clearRegistry : M A Unit := do
  M.modify fun s => { s with reg := [] }
  M.modify fun s => { s with reg := s.reg.update s.defaults }
  M.modify fun s => { s with reg := s.reg.update s.basic }

/-! ## Constructors -/

/-- One assignment of the constructors' loops with its duplication test (checker.py:377-380,
419-421, 424-426): permissions are compared by identity. -/
def addName (d : PyDict Name Val) (n : Name) (p : Val) : Except Exn (PyDict Name Val) :=
  if (d.get? n).getD p ≠ p then .error (.duplicationName n) else .ok (d.set n p)

/-- A loop of such assignments. -/
def addNames (d : PyDict Name Val) : List (Name × Val) → Except Exn (PyDict Name Val)
  | [] => .ok d
  | (n, p) :: r =>
    match addName d n p with
    | .error e => .error e
    | .ok d' => addNames d' r

/-- The dictionary built by `NamesChecker(names, permission_id, **kw)` (checker.py:366-382). -/
def namesData (names : List Name) (p : Val) (kw : PyDict Name Val) : Except Exn (PyDict Name Val) :=
  addNames (PyDict.update [] kw) (names.map fun n => (n, p))

/-- A specification of `MultiChecker` (checker.py:393-408): names (given or those of an
interface) with one permission, or a dictionary. -/
inductive MSpec where
  | names (ns : List Name) (p : Val)
  | dict (d : PyDict Name Val)
  deriving Repr

/-- The assignments a specification stands for, in order. -/
def MSpec.pairs : MSpec → List (Name × Val)
  | .names ns p => ns.map fun n => (n, p)
  | .dict d => d

/-- The outer loop of `MultiChecker` (checker.py:412-426). -/
def multiLoop (d : PyDict Name Val) : List MSpec → Except Exn (PyDict Name Val)
  | [] => .ok d
  | sp :: r =>
    match addNames d sp.pairs with
    | .error e => .error e
    | .ok d' => multiLoop d' r

/-- The dictionary built by `MultiChecker(specs)`. -/
def multiData (specs : List MSpec) : Except Exn (PyDict Name Val) := multiLoop [] specs

/-- `Checker(data)`: the write dictionary is a new empty one (checker.py:228-230; in C a missing
one is created the same way, _zope_security_checker.c:364-381). -/
def checkerOf (r : Except Exn (PyDict Name Val)) : M A Val :=
  match r with
  | .error e => M.throw e
  | .ok d => do
    let g ← newDict d
    let st ← newDict []
    newChecker g st

/-- `NamesChecker` (checker.py:366-382). -/
def namesChecker (names : List Name) (p : Val) (kw : PyDict Name Val) : M A Val :=
  checkerOf (namesData names p kw)

/-- `InterfaceChecker` (checker.py:385-390); an interface is given by its names. -/
def interfaceChecker (ifaceNames : List Name) (p : Val) (kw : PyDict Name Val) : M A Val :=
  namesChecker ifaceNames p kw

/-- `MultiChecker` (checker.py:393-428). -/
def multiChecker (specs : List MSpec) : M A Val := checkerOf (multiData specs)

end ZS
