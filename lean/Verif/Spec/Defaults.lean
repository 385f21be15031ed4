import Verif.Model.Py

/-!
# What the default registry promises for built-in types

Literal tables, independent of the ones in the model.
-/

namespace ZS.Spec

/-- Names readable on every protected object. -/
def always : List Name :=
  ["__lt__", "__le__", "__eq__", "__gt__", "__ge__", "__ne__", "__hash__", "__bool__", "__class__",
   "__providedBy__", "__implements__", "__repr__", "__conform__", "__name__", "__parent__"]

/-- Type names of the default registry with the names readable on their instances. -/
def readable : List (String × List Name) :=
  [("dict", ["__getitem__", "__len__", "__iter__", "get", "has_key", "copy", "__str__", "keys", "values", "items",
      "iterkeys", "iteritems", "itervalues", "__contains__"]),
   ("list", ["__getitem__", "__len__", "__iter__", "__contains__", "index", "count", "__str__", "__add__", "__radd__"]),
   ("tuple", ["__getitem__", "__add__", "__radd__", "__contains__", "__len__", "__iter__", "__str__"]),
   ("set", ["__iter__", "__len__", "__str__", "__contains__", "copy", "difference", "intersection", "issubset",
      "issuperset", "symmetric_difference", "union", "__and__", "__or__", "__sub__", "__xor__", "__rand__", "__ror__",
      "__rsub__", "__rxor__", "__eq__", "__ne__", "__lt__", "__gt__", "__le__", "__ge__"]),
   ("frozenset", ["__iter__", "__len__", "__str__", "__contains__", "copy", "difference", "intersection", "issubset",
      "issuperset", "symmetric_difference", "union", "__and__", "__or__", "__sub__", "__xor__", "__rand__", "__ror__",
      "__rsub__", "__rxor__", "__eq__", "__ne__", "__lt__", "__gt__", "__le__", "__ge__"]),
   ("list_iterator", ["next", "__next__", "__iter__", "__len__", "__length_hint__"]),
   ("tuple_iterator", ["next", "__next__", "__iter__", "__len__", "__length_hint__"]),
   ("dict_keyiterator", ["next", "__next__", "__iter__", "__len__", "__length_hint__"]),
   ("set_iterator", ["next", "__next__", "__iter__", "__len__", "__length_hint__"]),
   ("generator", ["next", "__next__", "__iter__", "__len__", "__length_hint__"])]

/-- Methods by which instances of those types are changed. -/
def mutators : List (String × List Name) :=
  [("dict", ["__setitem__", "__delitem__", "__ior__", "clear", "pop", "popitem", "setdefault", "update"]),
   ("list", ["__setitem__", "__delitem__", "__iadd__", "__imul__", "append", "clear", "extend", "insert", "pop",
      "remove", "reverse", "sort"]),
   ("set", ["__iand__", "__ior__", "__isub__", "__ixor__", "add", "clear", "difference_update", "discard",
      "intersection_update", "pop", "remove", "symmetric_difference_update", "update"]),
   ("generator", ["send", "throw", "close"])]

/-- Types whose instances are handed out unprotected. -/
def unprotected : List String :=
  ["object", "int", "float", "complex", "NoneType", "str", "bytes", "Message", "bool", "timedelta", "datetime", "date",
   "time", "tzinfo", "dict_values", "dict_keys", "dict_items", "UTC"]

end ZS.Spec
