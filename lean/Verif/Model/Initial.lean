import Verif.Model.Registry

/-!
# The state right after `import zope.security` (checker.py:493-917, 1076-1082)
-/

namespace ZS

/-- `_available_by_default` (checker.py:720-727). -/
def availableByDefault : List Name :=
  ["__lt__", "__le__", "__eq__", "__gt__", "__ge__", "__ne__", "__hash__", "__bool__",
   "__class__", "__providedBy__", "__implements__", "__repr__", "__conform__",
   "__name__", "__parent__"]

/-- Names of `_callableChecker` (checker.py:729). -/
def callableNames : List Name := ["__str__", "__name__", "__call__"]
/-- Names of `_typeChecker` (checker.py:730-733). -/
def typeNames : List Name :=
  ["__str__", "__name__", "__module__", "__bases__", "__mro__", "__implemented__"]
/-- Names of `_namedChecker` (checker.py:734). -/
def namedNames : List Name := ["__name__"]
/-- Names of `_iteratorChecker` (checker.py:735-738). -/
def iteratorNames : List Name := ["next", "__next__", "__iter__", "__len__", "__length_hint__"]
/-- Names of `_setChecker` (checker.py:740-748). -/
def setNames : List Name :=
  ["__iter__", "__len__", "__str__", "__contains__", "copy", "difference", "intersection",
   "issubset", "issuperset", "symmetric_difference", "union", "__and__", "__or__", "__sub__",
   "__xor__", "__rand__", "__ror__", "__rsub__", "__rxor__", "__eq__", "__ne__", "__lt__",
   "__gt__", "__le__", "__ge__"]
/-- checker.py:843-846. -/
def dictNames : List Name :=
  ["__getitem__", "__len__", "__iter__", "get", "has_key", "copy", "__str__", "keys", "values",
   "items", "iterkeys", "iteritems", "itervalues", "__contains__"]
/-- checker.py:847-849. -/
def listNames : List Name :=
  ["__getitem__", "__len__", "__iter__", "__contains__", "index", "count", "__str__", "__add__",
   "__radd__"]
/-- checker.py:854-870. -/
def decimalNames : List Name :=
  ["__bool__", "__cmp__", "__eq__", "__ne__", "__hash__", "__str__", "__neg__", "__pos__",
   "__abs__", "__add__", "__radd__", "__sub__", "__rsub__", "__mul__", "__rmul__",
   "__truediv__", "__rtruediv__", "__divmod__", "__rdivmod__", "__mod__", "__rmod__",
   "__floordiv__", "__rfloordiv__", "__float__", "__int__", "__pow__", "__rpow__", "adjusted",
   "as_tuple", "compare", "max", "min", "normalize", "quantize", "remainder_near",
   "same_quantum", "sqrt", "to_eng_string", "to_integral"]
/-- checker.py:873-875. -/
def tupleNames : List Name :=
  ["__getitem__", "__add__", "__radd__", "__contains__", "__len__", "__iter__", "__str__"]

/-- Result dictionary of a constructor that cannot fail. -/
def dataOf (r : Except Exn (PyDict Name Val)) : PyDict Name Val :=
  match r with
  | .ok d => d
  | .error _ => []

/-- Names of the interfaces of zope.interface used in the default table; they are defined
outside the repository. -/
structure Ext where
  iInterface : List Name
  iMethod : List Name
  iDeclaration : List Name

/-- The permission dictionaries existing after import: checker `k` has read dictionary `2k` and
write dictionary `2k+1`. -/
def initialDicts (E : Ext) : Nat → PyDict Name Val
  | 0 => [("__reduce__", publicV), ("__module__", publicV)]      -- CheckerPublic (checker.py:357-358)
  | 4 => dataOf (namesData namedNames publicV [])
  | 6 => dataOf (namesData callableNames publicV [])
  | 8 => dataOf (namesData typeNames publicV [])
  | 10 => dataOf (namesData iteratorNames publicV [])
  | 12 => dataOf (namesData setNames publicV [])
  | 14 => dataOf (namesData dictNames publicV [])
  | 16 => dataOf (namesData listNames publicV [])
  | 18 => dataOf (namesData decimalNames publicV [])
  | 20 => dataOf (namesData tupleNames publicV [])
  | 22 => dataOf (namesData ["__call__"] publicV [])              -- weakref (checker.py:877)
  | 24 => dataOf (namesData E.iInterface publicV
      [("__str__", publicV), ("_implied", publicV), ("subscribe", publicV), ("__len__", publicV)])
  | 26 => dataOf (namesData E.iMethod publicV [])
  | 28 => dataOf (namesData E.iDeclaration publicV
      [("_implied", publicV), ("subscribe", publicV), ("unsubscribe", publicV), ("__call__", publicV)])
  | _ => []

/-- Checker `k` of the initial state. -/
def initChecker (k : Nat) : Val := .checker k (2 * k) (2 * k + 1)

/-- `_BasicTypes` contents (checker.py:774-803). -/
def basicTypes : PyDict Key Val :=
  ["object", "int", "float", "complex", "NoneType", "str", "bytes", "Message", "bool",
   "timedelta", "datetime", "date", "time", "tzinfo", "dict_values", "dict_keys",
   "dict_items", "UTC"].map fun t => (Key.ty t, Val.noProxy)

/-- `_default_checkers` (checker.py:842-917) with the fix-ups of checker.py:920-1073 for CPython and
zope.interface; if BTrees is installed, the fix-ups add the types of its views and iterators (checker.py:958-985). -/
def defaultCheckers : PyDict Key Val :=
  [(.ty "dict", initChecker 7), (.ty "list", initChecker 8), (.ty "set", initChecker 6),
   (.ty "frozenset", initChecker 6), (.ty "Decimal", initChecker 9), (.ty "tuple", initChecker 10),
   (.ty "Proxy", .noProxy), (.ty "weakref", initChecker 11), (.ty "function", initChecker 3),
   (.ty "method", initChecker 3), (.ty "builtin_function_or_method", initChecker 3),
   (.ty "builtin_method", initChecker 3), (.ty "method-wrapper", initChecker 3),
   (.ty "type", initChecker 4), (.ty "module", moduleFactory),
   (.ty "list_iterator", initChecker 5), (.ty "tuple_iterator", initChecker 5),
   (.ty "dict_keyiterator", initChecker 5), (.ty "set_iterator", initChecker 5),
   (.ty "iterator", initChecker 5), (.ty "generator", initChecker 5),
   (.ty "InterfaceClass", initChecker 12), (.ty "Method", initChecker 13), (.ty "Provides", .noProxy),
   (.ty "ClassProvides", initChecker 14), (.ty "Implements", .noProxy), (.ty "Declaration", initChecker 14),
   (.ty "ABCMeta", initChecker 4),
   (.ty "odict_iterator", initChecker 5), (.ty "odict_keys", initChecker 5),
   (.ty "odict_items", initChecker 5), (.ty "odict_values", initChecker 5),
   (.ty "groupby", initChecker 5), (.ty "_grouper", initChecker 5), (.ty "count", initChecker 5),
   (.ty "cycle", initChecker 5), (.ty "dropwhile", initChecker 5), (.ty "islice", initChecker 5),
   (.ty "permutations", initChecker 5), (.ty "product", initChecker 5), (.ty "repeat", initChecker 5),
   (.ty "starmap", initChecker 5), (.ty "takewhile", initChecker 5), (.ty "_tee", initChecker 5),
   (.ty "zip_longest", initChecker 5), (.ty "accumulate", initChecker 5), (.ty "compress", initChecker 5),
   (.ty "combinations", initChecker 5), (.ty "combinations_with_replacement", initChecker 5)]

/-- The state after importing the package: no interaction in any thread, the paranoid policy
(management.py:45), `_checkers` as left by `_clear()` (checker.py:1082). -/
def initial {A : Type} (E : Ext) (a : A) : St A where
  reg := PyDict.update (PyDict.update [] defaultCheckers) basicTypes
  basic := basicTypes
  defaults := defaultCheckers
  dicts := initialDicts E
  nextId := 100
  avail := availableByDefault
  threads := fun _ => ⟨none, none⟩
  policy := .paranoid
  ixs := fun _ => ⟨false, []⟩
  parts := fun _ => ⟨.user "?", .none⟩
  ovW := fun _ => none
  ovC := fun _ => none
  parents := fun _ => .none
  app := a
  trace := []

end ZS
