import Verif.Model.PyRead
import Verif.Model.Initial
import Verif.Source.Checker

/-!
# What the names in the statements of checker.py mean

`moduleLang` is the language of the statements of checker.py itself (`Source.Checker._module`), which fill the
tables of checkers when the module is imported (checker.py:97-1089).

* Module-level variables are kept in the state, and so are the dictionaries they refer to.  A key that is a type stands
  in a dictionary under its name: no dictionary of the module has both strings and types as keys.
* An object of Python's own or of another package is known by its class only: `made c` is an object of the class `c`.
  Which class the objects have whose types are registered (`type(iter([]))` and its like) is a fact about Python, zope.interface and BTrees.
* A list that is assigned to a module-level variable is that variable's: no other name refers to it.
* `ImportError` is `Exn.other 0`.
-/

namespace ZS.PyC
open ZS

/-- The module-level variables. -/
abbrev Vars := Name → Option PV

/-- `ZOPE_WATCH_CHECKERS`: not set, set to a number, or to something that is no number. -/
inductive Watch where
  | unset | number | word
  deriving DecidableEq, Repr

/-- The text. -/
def Watch.text : Watch → PV
  | .unset => .v .none
  | .number => .v (.str 0 "2")
  | .word => .v (.str 0 "yes")

/-- `int()` of it. -/
def Watch.int : Watch → M Vars PV
  | .number => pure (.v (.int 2))
  | .unset => M.throw .typeError
  | .word => M.throw .valueError

/-- `PURE_PYTHON` is set; or it is not, and the C module cannot be imported; or it can. -/
inductive Build where
  | pure | missing | c
  deriving DecidableEq, Repr

/-- Where the module is imported. -/
structure Setup where
  build : Build
  watch : Watch
  pytz : Bool
  btrees : Bool
  /-- zope.testing is installed -/
  testing : Bool
  /-- the interfaces of zope.interface -/
  ext : Ext

/-- An object of a class that is no value of the model. -/
abbrev made (c : Name) : PV := .bound (.sym "made") c

/-- A type. -/
abbrev typeV (t : Name) : PV := .v (.type t)

/-- ImportError. -/
def importError : Exn := .other 0

/-- What a module-level variable refers to. -/
def globalOf (n : Name) : M Vars (Option PV) := do
  let s ← M.get
  pure (s.app n)

/-- Types known by a name of their own. -/
def typeNamesKnown : List Name :=
  ["object", "int", "float", "complex", "str", "bytes", "Message", "bool", "type", "dict", "list", "set", "frozenset", "tuple", "Proxy"]

/-- Functions, classes and modules. -/
def moduleSymbols : List Name :=
  ["os", "ValueError", "ImportError", "AttributeError", "directlyProvides", "ProxyFactory", "ISecurityProxyFactory", "proxy", "CheckerPy",
   "Global", "selectCheckerPy", "types", "WatchingChecker", "WatchingCombinedChecker", "INameBasedChecker", "zope", "NamesChecker", "InterfaceChecker",
   "datetime", "decimal", "pytz", "weakref", "io", "abc", "iter", "f", "Interface", "IDeclaration", "IInterface", "_BasicTypes", "_Sequence",
   "_fixup_odict", "_fixup_btrees", "_fixup_zope_interface", "_fixup_itertools", "_fixup_dictlike", "_clear", "getattr", "implementer", "class",
   "zope.interface.alsoProvides", "zope.interface.providedBy", "import itertools", "import BTrees._base"]

/-- An import that succeeds if `b`. -/
def importing (b : Bool) (x : PV) : M Vars PV := if b then pure x else M.throw importError

/-- Reading a global name: a variable of the module, or else a builtin or an imported name.  The objects of the C module were made when it was
initialised (_zope_security_checker.c:700-760); its checker and its dictionaries have numbers of their own. -/
def nglob (c : Setup) (n : Name) : M Vars PV := do
  let x ← globalOf n
  match x with
  | some (.list _) => pure (.bound (.sym "list") n)
  | some x => pure x
  | none =>
    if n ∈ typeNamesKnown then pure (typeV n)
    else if n ∈ moduleSymbols then pure (.sym n)
    else if n = "PURE_PYTHON" then pure (.v (.bool (decide (c.build = .pure))))
    else if n = "_lambda_894" then pure (.v moduleFactory)
    else if n = "collections.OrderedDict" then pure (typeV "OrderedDict")
    else if n = "import pytz" then importing c.pytz (.v .none)
    else if n = "import BTrees" then importing c.btrees (.v .none)
    else if n = "import zope.security._zope_security_checker" then importing (decide (c.build = .c)) (.v .none)
    else if n = "zope.testing.cleanup.addCleanUp" then importing c.testing (.sym "addCleanUp")
    else if n = "zope.security._zope_security_checker.Checker" then pure (.sym "Checker")
    else if n = "zope.security._zope_security_checker.NoProxy" then pure (.v .noProxy)
    else if n = "zope.security._zope_security_checker._available_by_default" then pure (.list [])
    else if n = "zope.security._zope_security_checker._checkers" then pure (.dict 1000)
    else if n = "zope.security._zope_security_checker._defaultChecker" then pure (.v (.checker 1001 1002 1003))
    else if n = "zope.security._zope_security_checker.selectChecker" then pure (.sym "selectChecker")
    else stuck

/-- Assigning to a global name. -/
def nsetGlob (n : Name) (x : PV) : M Vars Unit := M.modify fun s => { s with app := fun m => if m = n then some x else s.app m }

/-- Types and interfaces that are attributes of modules. -/
def attrOf (c : Setup) (m n : Name) : Option PV :=
  match m, n with
  | "types", "ModuleType" => some (typeV "module")
  | "types", "FunctionType" => some (typeV "function")
  | "types", "MethodType" => some (typeV "method")
  | "types", "BuiltinFunctionType" => some (typeV "builtin_function_or_method")
  | "types", "BuiltinMethodType" => some (typeV "builtin_function_or_method")
  | "datetime", n => some (typeV n)
  | "decimal", "Decimal" => some (typeV "Decimal")
  | "abc", "ABCMeta" => some (typeV "ABCMeta")
  | "pytz", "UTC" => some (made "UTC")
  | "zope.interface.interface", "Method" => some (typeV "Method")
  | "zope.interface.interfaces", "IMethod" => some (.list (c.ext.iMethod.map fun n => .v (.str 0 n)))
  | "zope.interface.declarations", "ProvidesClass" => some (typeV "Provides")
  | "zope.interface.declarations", n => some (typeV n)
  | "import BTrees._base", "_base" => some (.sym "BTrees._base")
  | "BTrees._base", "_TreeItems" => some (typeV "_TreeItems")
  | "os", "environ" => some (.sym "os.environ")
  | "zope", "interface" => some (.sym "zope.interface")
  | "zope.interface", n => some (.sym ("zope.interface." ++ n))
  | "itertools", n => some (.bound (.sym "itertools") n)
  | _, _ => none

/-- The B-tree class of a family. -/
def btreeOf (family kind : Name) : Name :=
  if family = "family64" then
    match kind with
    | "IF" => "LFBTree" | "II" => "LLBTree" | "IO" => "LOBTree" | "OI" => "OLBTree" | k => k ++ "BTree"
  else kind ++ "BTree"

/-- The classes of the views of a B-tree and of its iterators. -/
def btreeViews : List (Name × Name × Name) :=
  [("IFBTree", "IFTreeItems", "IFTreeIterator"), ("LFBTree", "LFTreeItems", "LFTreeIterator"),
   ("IIBTree", "IITreeItems", "IITreeIterator"), ("LLBTree", "LLTreeItems", "LLTreeIterator"),
   ("IOBTree", "IOTreeItems", "IOTreeIterator"), ("LOBTree", "LOTreeItems", "LOTreeIterator"),
   ("OIBTree", "OITreeItems", "OITreeIterator"), ("OLBTree", "OLTreeItems", "OLTreeIterator"),
   ("OOBTree", "OOTreeItems", "OOTreeIterator")]

/-- `o.n`. -/
def ngetattr (c : Setup) (o : PV) (n : Name) : M Vars PV :=
  match o with
  | .sym m =>
    match attrOf c (if m = "import itertools" then "itertools" else m) n with
    | some x => pure x
    | none => stuck
  | .dict d => pure (.bound (.dict d) n)
  | .tuple _ => pure (made "method-wrapper")
  | .bound (.sym "made") k => if k = "BytesIO" ∧ n = "getbuffer" then pure (made "builtin_method") else stuck
  | .bound (.bound (.sym "BTrees") fam) kind => if n = "BTree" then pure (typeV (btreeOf fam kind)) else stuck
  | _ => stuck

/-- `o.n = x`: the new name of `ProxyFactory` in proxy.py, and the class of `_defaultChecker`. -/
def nsetattr (o : PV) (n : Name) (_ : PV) : M Vars Unit :=
  match o with
  | .sym m => if m = "proxy" ∧ n = "ProxyFactory" then pure () else stuck
  | .v x => if x.isChecker ∧ n = "__class__" then pure () else stuck
  | _ => stuck

/-- What a key is in a dictionary. -/
def keyName : PV → Option Name
  | .v (.type t) => some t
  | .v (.str _ n) => some n
  | .v (.int n) => some (toString n)
  | _ => none

/-- `d[k] = x` and `l[:] = x`. -/
def nsetitem (o k x : PV) : M Vars Unit :=
  match o, x with
  | .dict d, .v x =>
    match keyName k with
    | some n => M.modify fun s => { s with dicts := fun j => if j = d then (s.dicts d).set n x else s.dicts j }
    | none => stuck
  | .bound (.sym "list") n, .list l =>
    match k with
    | .slice (.v .none) (.v .none) => nsetGlob n (.list l)
    | _ => stuck
  | _, _ => stuck

/-- `x[i]`. -/
def ngetitem (x i : PV) : M Vars PV :=
  match x, i with
  | .list l, .v (.int n) => match l[n.toNat]? with | some y => pure y | none => M.throw .indexError
  | .tuple l, .v (.int n) => match l[n.toNat]? with | some y => pure y | none => M.throw .indexError
  | _, _ => stuck

/-- The items of a dictionary display. -/
def itemsIn : List PV → Option (PyDict Name Val)
  | [] => some []
  | .tuple [k, .v x] :: r =>
    match keyName k, itemsIn r with
    | some n, some d => some ((n, x) :: d)
    | _, _ => none
  | _ :: _ => none

/-- A dictionary display. -/
def nnewDict (l : List PV) : M Vars PV :=
  match itemsIn l with
  | some d => do
    let k ← newDict (PyDict.update [] d)
    pure (.dict k)
  | none => stuck

/-- The class of an object. -/
def classOf (x : PV) : Option Name :=
  match x with
  | .bound (.sym "made") k => some k
  | .v .none => some "NoneType"
  | .sym "Interface" => some "InterfaceClass"
  | _ => none

/-- The class of the iterator of an object. -/
def iterOf (x : PV) : Option Name :=
  match x with
  | .list _ => some "list_iterator"
  | .tuple _ => some "tuple_iterator"
  | .dict _ => some "dict_keyiterator"
  | .bound (.sym "made") k =>
    match k with
    | "set" => some "set_iterator"
    | "_Sequence" => some "iterator"
    | "odict_iterator" | "odict_keys" | "odict_items" | "odict_values" => some "odict_iterator"
    | k => (btreeViews.find? fun v => decide (v.2.1 = k) || decide (v.2.2 = k)).map fun v => v.2.2
  | _ => none

/-- The class of what `__iter__`, `keys`, `items` and `values` of a dictionary or a B-tree return. -/
def viewOf (k m : Name) : Option Name :=
  if k = "OrderedDict" then
    match m with
    | "__iter__" => some "odict_iterator" | "keys" => some "odict_keys" | "items" => some "odict_items"
    | "values" => some "odict_values" | _ => none
  else (btreeViews.find? fun v => decide (v.1 = k)).map fun v => if m = "__iter__" then v.2.2 else v.2.1

/-- What makes a checker from names, a permission and keyword arguments. -/
abbrev Maker := Option (List Name) → Val → Option (PyDict Name Val) → M Vars PV

/-- `NamesChecker` of the model. -/
def nchecker (ns : Option (List Name)) (p : Val) (kws : Option (PyDict Name Val)) : M Vars PV :=
  match ns, kws with
  | some ns, some kws => val (namesChecker ns p kws)
  | _, _ => stuck

/-- `NamesChecker(names, **kw)` and `InterfaceChecker(interface, **kw)`: the default of `permission_id` is `CheckerPublic` (checker.py:366, 385). -/
def npublic (mk : Maker) (ns : Option (List Name)) (kws : List (Name × PV)) : M Vars PV := do
  let p ← globalOf "CheckerPublic"
  match p with
  | some (.v p) => mk ns p (kwVals kws)
  | _ => stuck

/-- The names of an interface. -/
def ifaceOf (c : Setup) : PV → Option (List Name)
  | .sym "IDeclaration" => some c.ext.iDeclaration
  | .sym "IInterface" => some c.ext.iInterface
  | .list _ => some c.ext.iMethod
  | _ => none

/-- `providedBy(o)` is what the class implements, until something is provided directly. -/
def nprovided : M Vars PV := do
  let x ← globalOf "%provides"
  match x with
  | some _ => pure (made "Provides")
  | none => pure (made "Implements")

/-- `type(x)` -/
def ntype (args : List PV) : M Vars PV :=
  match args with
  | [x] => match classOf x with | some t => pure (typeV t) | none => stuck
  | _ => stuck

/-- Calling a type. -/
def ncallType (c : Setup) (t : Name) (args : List PV) : M Vars PV :=
  if t = "type" then ntype args
  else if t = "object" then pure (.v .noProxy)
  else if t = "int" then c.watch.int
  else if t = "Proxy" then
    match args with
    | [.v o, .v k] => val (newProxy o k)
    | _ => stuck
  else if t = "list" then
    match args with
    | [.bound (.sym "made") "groupby"] => pure (.list [.tuple [.v (.int 0), made "_grouper"]])
    | _ => stuck
  else pure (made t)

/-- `Checker(d)`. -/
def ncallChecker (args : List PV) : M Vars PV :=
  match args with
  | [.dict g] => val (do
      let st ← newDict []
      newChecker g st)
  | _ => stuck

/-- Calling a function, a class or a type.  `go` runs a function of the module. -/
def ncall (mk : Maker) (c : Setup) (go : Fn → List PV → M Vars PV) (f : PV) (args : List PV) (kws : List (Name × PV)) : M Vars PV :=
  match f with
  | .v (.type t) => ncallType c t args
  | .sym f =>
    if f = "NamesChecker" then
      match args with
      | [.list l] => npublic mk (namesOf l) kws
      | _ => stuck
    else if f = "InterfaceChecker" then
      match args with
      | [i] => npublic mk (ifaceOf c i) kws
      | _ => stuck
    else if f = "CheckerPy" ∨ f = "Checker" ∨ f = "WatchingChecker" then ncallChecker args
    else if f = "Global" then pure (.v (.obj 0))
    else if f = "iter" then
      match args with
      | [x] => match iterOf x with | some k => pure (made k) | none => stuck
      | _ => stuck
    else if f = "_Sequence" then pure (made "_Sequence")
    else if f = "f" then pure (made "generator")
    else if f = "_BasicTypes" then
      match args with
      | [.dict d] => do
        let s ← M.get
        let k ← newDict (s.dicts d)
        pure (.dict k)
      | _ => stuck
    else if f = "directlyProvides" ∨ f = "addCleanUp" then pure (.v .none)
    else if f = "getattr" then
      match args with
      | [.bound (.sym "made") k, .v (.str _ n)] => pure (.bound (made k) n)
      | [.sym m, .v (.str _ n)] =>
        if m = "import itertools" then pure (.bound (.sym "itertools") n)
        else if m = "import BTrees._base" then pure (.bound (.sym "BTrees") n)
        else stuck
      | [.bound (.sym "BTrees") fam, .v (.str _ n)] => pure (.bound (.bound (.sym "BTrees") fam) n)
      | _ => stuck
    else if f = "class" then pure (.sym "a class")
    else if f = "implementer" then pure (.sym "a decorator")
    else if f = "a decorator" then pure (.sym "a class")
    else if f = "a class" then pure (made "Obj")
    else if f = "zope.interface.providedBy" then nprovided
    else if f = "zope.interface.alsoProvides" then unit (nsetGlob "%provides" (.v .none))
    else if f = "_fixup_odict" then go Src.Checker._fixup_odict args
    else if f = "_fixup_dictlike" then go Src.Checker._fixup_dictlike args
    else if f = "_fixup_btrees" then go Src.Checker._fixup_btrees args
    else if f = "_fixup_zope_interface" then go Src.Checker._fixup_zope_interface args
    else if f = "_fixup_itertools" then go Src.Checker._fixup_itertools args
    else if f = "_clear" then go Src.Checker._clear args
    else stuck
  | .bound (.bound (.sym "made") k) m => match viewOf k m with | some t => pure (made t) | none => stuck
  | .bound (.sym "itertools") k =>
    if k = "tee" then pure (.tuple [made "_tee", made "_tee"]) else pure (made k)
  | _ => stuck

/-- `o.m(*args, **kws)`. -/
def nmethod (c : Setup) (o : PV) (m : Name) (args : List PV) (_ : List (Name × PV)) : M Vars PV :=
  match o with
  | .sym k =>
    if k = "os.environ" then pure c.watch.text
    else if k = "zope.interface" ∧ m = "classImplements" then pure (.v .none)
    else if k = "weakref" ∧ m = "ref" then pure (made "weakref")
    else if k = "io" then pure (made m)
    else if k = "import itertools" then pure (made m)
    else stuck
  | .dict d =>
    if m = "values" ∨ m = "keys" ∨ m = "items" then pure (made ("dict_" ++ m))
    else if m = "clear" then unit (M.modify fun s => { s with dicts := fun j => if j = d then [] else s.dicts j })
    else if m = "update" then
      match args with
      | [.dict e] => unit (M.modify fun s => { s with dicts := fun j => if j = d then (s.dicts d).update (s.dicts e) else s.dicts j })
      | _ => stuck
    else stuck
  | _ => stuck

/-- `k in d`, and `==` of functions of itertools. -/
def ncompare (op : CmpOp) (x y : PV) : M Vars PV :=
  match op, x, y with
  | .notIn, x, .dict d => do
    let s ← M.get
    match keyName x with
    | some n => pure (.v (.bool (!((s.dicts d).mem n))))
    | none => stuck
  | .eq, .bound (.sym "itertools") a, .bound (.sym "itertools") b => pure (.v (.bool (decide (a = b))))
  | _, _, _ => stuck

/-- `bool(x)`. -/
def ntruth (x : PV) : M Vars Bool :=
  match x with
  | .v (.bool b) => pure b
  | .v (.int n) => pure (decide (n ≠ 0))
  | .v (.str _ t) => pure (decide (t ≠ ""))
  | .v .none => pure false
  | _ => stuck

/-- The items of a tuple. -/
def niter (x : PV) : M Vars (List PV) :=
  match x with
  | .tuple l => pure l
  | _ => stuck

/-- `except c:` and `except (c, d):`. -/
def ncatches (c : PV) (e : Exn) : Bool :=
  let one : PV → Bool := fun c =>
    match c with
    | .sym "ImportError" => decide (e = importError)
    | c => lcatches c e
  match c with
  | .tuple l => l.any one
  | c => one c

/-- The language of the statements of checker.py, where functions of the module are run by `go`. -/
def moduleWith (mk : Maker) (c : Setup) (go : Fn → List PV → M Vars PV) : Lang Vars where
  glob := nglob c
  setGlob := nsetGlob
  getattr := ngetattr c
  setattr := nsetattr
  delattr := fun _ _ => stuck
  getitem := ngetitem
  setitem := nsetitem
  delitem := fun _ _ => stuck
  method := nmethod c
  call := ncall mk c go
  same := same
  compare := ncompare
  bin := fun _ _ _ => stuck
  truth := ntruth
  fmt := fun _ _ => stuck
  join := fun _ => stuck
  newDict := nnewDict
  iter := niter
  unpack := lunpack
  catches := ncatches
  toExn := ltoExn
  fuel := 0

/-- The language in which functions of the module may call others, `k` deep. -/
def moduleLang (mk : Maker) (c : Setup) : Nat → Lang Vars
  | 0 => moduleWith mk c fun _ _ => stuck
  | k + 1 => moduleWith mk c fun f args => run (moduleLang mk c k) f args

/-- A process that has not yet imported the module.  The classes and functions of the module count as defined: the only one whose name is assigned to
again and that is not assigned to otherwise is `CombinedChecker` (checker.py:699). -/
def unimported : St Vars where
  reg := []
  basic := []
  defaults := []
  dicts := fun _ => []
  nextId := 0
  avail := []
  threads := fun _ => ⟨none, none⟩
  policy := .paranoid
  ixs := fun _ => ⟨false, []⟩
  parts := fun _ => ⟨.user "?", .none⟩
  ovW := fun _ => none
  ovC := fun _ => none
  parents := fun _ => .none
  app := fun n => if n = "CombinedChecker" then some (.sym "CombinedChecker") else none
  trace := []

/-- Importing checker.py: running its statements. -/
def importChecker (c : Setup) : Res Flow × St Vars := execs (moduleLang nchecker c 2) Src.Checker._module none [] unimported

end ZS.PyC
