import Verif.Model.PyCode

/-!
# The functions of checker.py

Written by tools/pysource.py from the text of the file; do not edit.  `_loops` are the
module-level `for` statements, `C.methods` the functions in the body of the class `C`.
Left out: the statement in line 91 (ClassDef); the statement in line 805 (Constant(value=b'abc')).
-/

namespace ZS.Src.Checker
open ZS ZS.PyC

/-- checker.py:106-132 -/
def ProxyFactory : Fn where
  params := [("object", none), ("checker", some (.none))]
  star := none
  dstar := none
  body :=
   [.if (.call (.glo "isinstance") [.loc "object", .glo "Proxy"])
     [.if (.or (.cmp .is (.loc "checker") (.none)) (.cmp .is (.loc "checker") (.call (.glo "getChecker") [.loc "object"])))
       [.ret (.loc "object")]
       [.raise (.call (.glo "TypeError") [.str "Tried to use ProxyFactory to change a Proxy's checker."])]]
     [],
    .if (.cmp .is (.loc "checker") (.none))
     [.assign (.loc "checker") (.call (.glo "getattr") [.loc "object", .str "__Security_checker__", .none]),
      .if (.cmp .is (.loc "checker") (.none))
       [.assign (.loc "checker") (.call (.glo "selectChecker") [.loc "object"]),
        .if (.cmp .is (.loc "checker") (.none))
         [.ret (.loc "object")]
         []]
       []]
     [],
    .ret (.call (.glo "Proxy") [.loc "object", .loc "checker"])]

/-- checker.py:144-176 -/
def canWrite : Fn where
  params := [("obj", none), ("name", none)]
  star := none
  dstar := none
  body :=
   [.assign (.loc "obj") (.call (.glo "ProxyFactory") [.loc "obj"]),
    .assign (.loc "checker") (.call (.glo "getChecker") [.loc "obj"]),
    .try
     [.expr (.call (.attr (.loc "checker") "check_setattr") [.loc "obj", .loc "name"])]
     [.handler (some (.glo "Unauthorized")) none
       [.ret (.false)],
     .handler (some (.glo "ForbiddenAttribute")) none
       [.try
         [.expr (.call (.attr (.loc "checker") "check_getattr") [.loc "obj", .loc "name"])]
         [.handler (some (.glo "Unauthorized")) none
           [.pass]]
         []
         [],
        .ret (.false)]]
     []
     [],
    .ret (.true)]

/-- checker.py:179-195 -/
def canAccess : Fn where
  params := [("obj", none), ("name", none)]
  star := none
  dstar := none
  body :=
   [.assign (.loc "obj") (.call (.glo "ProxyFactory") [.loc "obj"]),
    .assign (.loc "checker") (.call (.glo "getChecker") [.loc "obj"]),
    .try
     [.expr (.call (.attr (.loc "checker") "check_getattr") [.loc "obj", .loc "name"])]
     [.handler (some (.glo "Unauthorized")) none
       [.ret (.false)]]
     []
     [],
    .ret (.true)]

/-- checker.py:208-230 -/
def CheckerPy.__init__ : Fn where
  params := [("self", none), ("get_permissions", none), ("set_permissions", some (.none))]
  star := none
  dstar := none
  body :=
   [.if (.not (.call (.glo "isinstance") [.loc "get_permissions", .glo "dict"]))
     [.raise (.call (.glo "TypeError") [.str "get_permissions must be a dict"])]
     [],
    .assign (.attr (.loc "self") "get_permissions") (.loc "get_permissions"),
    .if (.cmp .isNot (.loc "set_permissions") (.none))
     [.if (.not (.call (.glo "isinstance") [.loc "set_permissions", .glo "dict"]))
       [.raise (.call (.glo "TypeError") [.str "set_permissions must be a dict"])]
       []]
     [.assign (.loc "set_permissions") (.dict [])],
    .assign (.attr (.loc "self") "set_permissions") (.loc "set_permissions")]

/-- checker.py:232-234 -/
def CheckerPy.permission_id : Fn where
  params := [("self", none), ("name", none)]
  star := none
  dstar := none
  body :=
   [.ret (.call (.attr (.attr (.loc "self") "get_permissions") "get") [.loc "name"])]

/-- checker.py:236-239 -/
def CheckerPy.setattr_permission_id : Fn where
  params := [("self", none), ("name", none)]
  star := none
  dstar := none
  body :=
   [.if (.attr (.loc "self") "set_permissions")
     [.ret (.call (.attr (.attr (.loc "self") "set_permissions") "get") [.loc "name"])]
     []]

/-- checker.py:241-258 -/
def CheckerPy.check_setattr : Fn where
  params := [("self", none), ("object", none), ("name", none)]
  star := none
  dstar := none
  body :=
   [.if (.attr (.loc "self") "set_permissions")
     [.assign (.loc "permission") (.call (.attr (.attr (.loc "self") "set_permissions") "get") [.loc "name"])]
     [.assign (.loc "permission") (.none)],
    .if (.cmp .isNot (.loc "permission") (.none))
     [.if (.cmp .is (.loc "permission") (.glo "CheckerPublic"))
       [.ret .none]
       [],
      .if (.call (.attr (.attr (.glo "thread_local") "interaction") "checkPermission") [.loc "permission", .loc "object"])
       [.ret .none]
       [.assign (.loc "__traceback_supplement__") (.tuple [.glo "TracebackSupplement", .loc "object"]),
        .raise (.call (.glo "Unauthorized") [.loc "object", .loc "name", .loc "permission"])]]
     [],
    .assign (.loc "__traceback_supplement__") (.tuple [.glo "TracebackSupplement", .loc "object"]),
    .raise (.call (.glo "ForbiddenAttribute") [.loc "name", .loc "object"])]

/-- checker.py:260-276 -/
def CheckerPy.check : Fn where
  params := [("self", none), ("object", none), ("name", none)]
  star := none
  dstar := none
  body :=
   [.assign (.loc "permission") (.call (.attr (.attr (.loc "self") "get_permissions") "get") [.loc "name"]),
    .if (.cmp .isNot (.loc "permission") (.none))
     [.if (.cmp .is (.loc "permission") (.glo "CheckerPublic"))
       [.ret .none]
       [],
      .if (.call (.attr (.attr (.glo "thread_local") "interaction") "checkPermission") [.loc "permission", .loc "object"])
       [.ret .none]
       [.assign (.loc "__traceback_supplement__") (.tuple [.glo "TracebackSupplement", .loc "object"]),
        .raise (.call (.glo "Unauthorized") [.loc "object", .loc "name", .loc "permission"])]]
     [.if (.cmp .isIn (.loc "name") (.glo "_available_by_default"))
       [.ret .none]
       []],
    .if (.or (.cmp .ne (.loc "name") (.str "__iter__")) (.call (.glo "hasattr") [.loc "object", .loc "name"]))
     [.assign (.loc "__traceback_supplement__") (.tuple [.glo "TracebackSupplement", .loc "object"]),
      .raise (.call (.glo "ForbiddenAttribute") [.loc "name", .loc "object"])]
     []]

/-- checker.py:280-290 -/
def CheckerPy.proxy : Fn where
  params := [("self", none), ("value", none)]
  star := none
  dstar := none
  body :=
   [.if (.call (.glo "isinstance") [.loc "value", .glo "Proxy"])
     [.ret (.loc "value")]
     [],
    .assign (.loc "checker") (.call (.glo "getattr") [.loc "value", .str "__Security_checker__", .none]),
    .if (.cmp .is (.loc "checker") (.none))
     [.assign (.loc "checker") (.call (.glo "selectChecker") [.loc "value"]),
      .if (.cmp .is (.loc "checker") (.none))
       [.ret (.loc "value")]
       []]
     [],
    .ret (.call (.glo "Proxy") [.loc "value", .loc "checker"])]

/-- checker.py:299-300 -/
def TracebackSupplement.__init__ : Fn where
  params := [("self", none), ("obj", none)]
  star := none
  dstar := none
  body :=
   [.assign (.attr (.loc "self") "obj") (.loc "obj")]

/-- checker.py:302-322 -/
def TracebackSupplement.getInfo : Fn where
  params := [("self", none)]
  star := none
  dstar := none
  body :=
   [.assign (.loc "result") (.list []),
    .try
     [.assign (.loc "cls") (.attr (.attr (.loc "self") "obj") "__class__"),
      .if (.call (.glo "hasattr") [.loc "cls", .str "__module__"])
       [.assign (.loc "s") (.fstr [.fmt "" (.attr (.loc "cls") "__module__"), .str ".", .fmt "" (.attr (.loc "cls") "__name__")])]
       [.assign (.loc "s") (.call (.glo "str") [.attr (.loc "cls") "__name__"])],
      .aug "+" (.loc "result") (.list [.bin "+" (.str "   - class: ") (.loc "s")])]
     [.handler none none
       [.pass]]
     []
     [],
    .try
     [.assign (.loc "cls") (.call (.glo "type") [.attr (.loc "self") "obj"]),
      .if (.call (.glo "hasattr") [.loc "cls", .str "__module__"])
       [.assign (.loc "s") (.fstr [.fmt "" (.attr (.loc "cls") "__module__"), .str ".", .fmt "" (.attr (.loc "cls") "__name__")])]
       [.assign (.loc "s") (.call (.glo "str") [.attr (.loc "cls") "__name__"])],
      .aug "+" (.loc "result") (.list [.bin "+" (.str "   - type: ") (.loc "s")])]
     [.handler none none
       [.pass]]
     []
     [],
    .ret (.call (.attr (.str "\n") "join") [.loc "result"])]

/-- checker.py:333-338 -/
def Global.__init__ : Fn where
  params := [("self", none), ("name", none), ("module", some (.none))]
  star := none
  dstar := none
  body :=
   [.if (.cmp .is (.loc "module") (.none))
     [.assign (.loc "module") (.sub (.attr (.call (.attr (.glo "sys") "_getframe") [.num (1)]) "f_locals") (.str "__name__"))]
     [],
    .assign (.attr (.loc "self") "__name__") (.loc "name"),
    .assign (.attr (.loc "self") "__module__") (.loc "module")]

/-- checker.py:340-341 -/
def Global.__reduce__ : Fn where
  params := [("self", none)]
  star := none
  dstar := none
  body :=
   [.ret (.attr (.loc "self") "__name__")]

/-- checker.py:343-345 -/
def Global.__repr__ : Fn where
  params := [("self", none)]
  star := none
  dstar := none
  body :=
   [.ret (.call (.attr (.str "{}({},{})") "format") [.attr (.attr (.loc "self") "__class__") "__name__", .attr (.loc "self") "__name__", .attr (.loc "self") "__module__"])]

/-- checker.py:366-382 -/
def NamesChecker : Fn where
  params := [("names", some (.tuple [])), ("permission_id", some (.glo "CheckerPublic"))]
  star := none
  dstar := (some "__kw__")
  body :=
   [.assign (.loc "data") (.dict []),
    .expr (.call (.attr (.loc "data") "update") [.loc "__kw__"]),
    .for (.loc "name") (.loc "names")
     [.if (.cmp .isNot (.call (.attr (.loc "data") "get") [.loc "name", .loc "permission_id"]) (.loc "permission_id"))
       [.raise (.call (.glo "DuplicationError") [.loc "name"])]
       [],
      .assign (.sub (.loc "data") (.loc "name")) (.loc "permission_id")],
    .ret (.call (.glo "Checker") [.loc "data"])]

/-- checker.py:385-390 -/
def InterfaceChecker : Fn where
  params := [("interface", none), ("permission_id", some (.glo "CheckerPublic"))]
  star := none
  dstar := (some "__kw__")
  body :=
   [.ret (.call (.glo "NamesChecker") [.call (.attr (.loc "interface") "names") [.kw "all" (.true)], .loc "permission_id", .dstar (.loc "__kw__")])]

/-- checker.py:393-428 -/
def MultiChecker : Fn where
  params := [("specs", none)]
  star := none
  dstar := none
  body :=
   [.assign (.loc "data") (.dict []),
    .for (.loc "spec") (.loc "specs")
     [.if (.call (.glo "isinstance") [.loc "spec", .glo "tuple"])
       [.assign (.tuple [.loc "names", .loc "permission_id"]) (.loc "spec"),
        .if (.call (.attr (.glo "IInterface") "providedBy") [.loc "names"])
         [.assign (.loc "names") (.call (.attr (.loc "names") "names") [.kw "all" (.true)])]
         [],
        .for (.loc "name") (.loc "names")
         [.if (.cmp .isNot (.call (.attr (.loc "data") "get") [.loc "name", .loc "permission_id"]) (.loc "permission_id"))
           [.raise (.call (.glo "DuplicationError") [.loc "name"])]
           [],
          .assign (.sub (.loc "data") (.loc "name")) (.loc "permission_id")]]
       [.for (.tuple [.loc "name", .loc "permission_id"]) (.call (.attr (.loc "spec") "items") [])
         [.if (.cmp .isNot (.call (.attr (.loc "data") "get") [.loc "name", .loc "permission_id"]) (.loc "permission_id"))
           [.raise (.call (.glo "DuplicationError") [.loc "name"])]
           [],
          .assign (.sub (.loc "data") (.loc "name")) (.loc "permission_id")]]],
    .ret (.call (.glo "Checker") [.loc "data"])]

/-- checker.py:431-462 -/
def selectCheckerPy : Fn where
  params := [("object", none)]
  star := none
  dstar := none
  body :=
   [.assign (.loc "checker") (.call (.glo "_getChecker") [.call (.glo "type") [.loc "object"], .glo "_defaultChecker"]),
    .if (.cmp .is (.loc "checker") (.glo "NoProxy"))
     [.ret (.none)]
     [],
    .while (.not (.call (.glo "isinstance") [.loc "checker", .glo "Checker"]))
     [.assign (.loc "checker") (.call (.loc "checker") [.loc "object"]),
      .if (.or (.cmp .is (.loc "checker") (.glo "NoProxy")) (.cmp .is (.loc "checker") (.none)))
       [.ret (.none)]
       []],
    .ret (.loc "checker")]

/-- checker.py:468-469 -/
def getCheckerForInstancesOf : Fn where
  params := [("class_", none)]
  star := none
  dstar := none
  body :=
   [.ret (.call (.attr (.glo "_checkers") "get") [.loc "class_"])]

/-- checker.py:475-486 -/
def defineChecker : Fn where
  params := [("type_", none), ("checker", none)]
  star := none
  dstar := none
  body :=
   [.if (.not (.call (.glo "isinstance") [.loc "type_", .glo "DEFINABLE_TYPES"]))
     [.raise (.call (.glo "TypeError") [.bin "%" (.str "type_ must be a type, class or module, not a %s") (.loc "type_")])]
     [],
    .if (.cmp .isIn (.loc "type_") (.glo "_checkers"))
     [.raise (.call (.glo "DuplicationError") [.loc "type_"])]
     [],
    .assign (.sub (.glo "_checkers") (.loc "type_")) (.loc "checker")]

/-- checker.py:489-490 -/
def undefineChecker : Fn where
  params := [("type_", none)]
  star := none
  dstar := none
  body :=
   [.del (.sub (.glo "_checkers") (.loc "type_"))]

/-- checker.py:556-562 -/
def CombinedChecker.__init__ : Fn where
  params := [("self", none), ("checker1", none), ("checker2", none)]
  star := none
  dstar := none
  body :=
   [.expr (.call (.attr (.glo "Checker") "__init__") [.loc "self", .attr (.loc "checker1") "get_permissions", .attr (.loc "checker1") "set_permissions"]),
    .assign (.attr (.loc "self") "_checker2") (.loc "checker2")]

/-- checker.py:564-574 -/
def CombinedChecker.check : Fn where
  params := [("self", none), ("object", none), ("name", none)]
  star := none
  dstar := none
  body :=
   [.try
     [.expr (.call (.attr (.glo "Checker") "check") [.loc "self", .loc "object", .loc "name"])]
     [.handler (some (.glo "ForbiddenAttribute")) none
       [.expr (.call (.attr (.attr (.loc "self") "_checker2") "check") [.loc "object", .loc "name"])],
     .handler (some (.glo "Unauthorized")) (some "unauthorized_exception")
       [.try
         [.expr (.call (.attr (.attr (.loc "self") "_checker2") "check") [.loc "object", .loc "name"])]
         [.handler (some (.glo "ForbiddenAttribute")) none
           [.raise (.loc "unauthorized_exception")]]
         []
         []]]
     []
     []]

/-- checker.py:578-588 -/
def CombinedChecker.check_setattr : Fn where
  params := [("self", none), ("object", none), ("name", none)]
  star := none
  dstar := none
  body :=
   [.try
     [.expr (.call (.attr (.glo "Checker") "check_setattr") [.loc "self", .loc "object", .loc "name"])]
     [.handler (some (.glo "ForbiddenAttribute")) none
       [.expr (.call (.attr (.attr (.loc "self") "_checker2") "check_setattr") [.loc "object", .loc "name"])],
     .handler (some (.glo "Unauthorized")) (some "unauthorized_exception")
       [.try
         [.expr (.call (.attr (.attr (.loc "self") "_checker2") "check_setattr") [.loc "object", .loc "name"])]
         [.handler (some (.glo "ForbiddenAttribute")) none
           [.raise (.loc "unauthorized_exception")]]
         []
         []]]
     []
     []]

/-- checker.py:607-609 -/
def CheckerLoggingMixin._log : Fn where
  params := [("self", none), ("msg", none), ("verbosity", some (.num (1)))]
  star := none
  dstar := none
  body :=
   [.if (.cmp .ge (.attr (.loc "self") "verbosity") (.loc "verbosity"))
     [.expr (.call (.attr (.attr (.loc "self") "_file") "write") [.bin "%" (.str "%s\n") (.loc "msg")])]
     []]

/-- checker.py:611-628 -/
def CheckerLoggingMixin.check : Fn where
  params := [("self", none), ("object", none), ("name", none)]
  star := none
  dstar := none
  body :=
   [.try
     [.expr (.call (.attr (.call (.glo "super") []) "check") [.loc "object", .loc "name"]),
      .if (.cmp .gt (.attr (.loc "self") "verbosity") (.num (1)))
       [.if (.cmp .isIn (.loc "name") (.glo "_available_by_default"))
         [.expr (.call (.attr (.loc "self") "_log") [.bin "%" (.str "[CHK] + Always available: %s on %r") (.tuple [.loc "name", .loc "object"]), .num (2)])]
         [.expr (.call (.attr (.loc "self") "_log") [.fstr [.str "[CHK] + Granted: ", .fmt "" (.loc "name"), .str " on ", .fmt "r" (.loc "object")], .num (2)])]]
       []]
     [.handler (some (.glo "Unauthorized")) none
       [.expr (.call (.attr (.loc "self") "_log") [.fstr [.str "[CHK] - Unauthorized: ", .fmt "" (.loc "name"), .str " on ", .fmt "r" (.loc "object")]]),
        .reraise],
     .handler (some (.glo "ForbiddenAttribute")) none
       [.expr (.call (.attr (.loc "self") "_log") [.fstr [.str "[CHK] - Forbidden: ", .fmt "" (.loc "name"), .str " on ", .fmt "r" (.loc "object")]]),
        .reraise]]
     []
     []]

/-- checker.py:630-650 -/
def CheckerLoggingMixin.check_getattr : Fn where
  params := [("self", none), ("object", none), ("name", none)]
  star := none
  dstar := none
  body :=
   [.try
     [.expr (.call (.attr (.call (.glo "super") []) "check") [.loc "object", .loc "name"]),
      .if (.cmp .gt (.attr (.loc "self") "verbosity") (.num (1)))
       [.if (.cmp .isIn (.loc "name") (.glo "_available_by_default"))
         [.expr (.call (.attr (.loc "self") "_log") [.bin "%" (.str "[CHK] + Always available getattr: %s on %r") (.tuple [.loc "name", .loc "object"]), .num (2)])]
         [.expr (.call (.attr (.loc "self") "_log") [.bin "%" (.str "[CHK] + Granted getattr: %s on %r") (.tuple [.loc "name", .loc "object"]), .num (2)])]]
       []]
     [.handler (some (.glo "Unauthorized")) none
       [.expr (.call (.attr (.loc "self") "_log") [.fstr [.str "[CHK] - Unauthorized getattr: ", .fmt "" (.loc "name"), .str " on ", .fmt "r" (.loc "object")]]),
        .reraise],
     .handler (some (.glo "ForbiddenAttribute")) none
       [.expr (.call (.attr (.loc "self") "_log") [.fstr [.str "[CHK] - Forbidden getattr: ", .fmt "" (.loc "name"), .str " on ", .fmt "r" (.loc "object")]]),
        .reraise]]
     []
     []]

/-- checker.py:654-669 -/
def CheckerLoggingMixin.check_setattr : Fn where
  params := [("self", none), ("object", none), ("name", none)]
  star := none
  dstar := none
  body :=
   [.try
     [.expr (.call (.attr (.call (.glo "super") []) "check_setattr") [.loc "object", .loc "name"]),
      .if (.cmp .gt (.attr (.loc "self") "verbosity") (.num (1)))
       [.expr (.call (.attr (.loc "self") "_log") [.call (.attr (.str "[CHK] + Granted setattr: {} on {!r}") "format") [.loc "name", .loc "object"], .num (2)])]
       []]
     [.handler (some (.glo "Unauthorized")) none
       [.expr (.call (.attr (.loc "self") "_log") [.call (.attr (.str "[CHK] - Unauthorized setattr: {} on {!r}") "format") [.loc "name", .loc "object"]]),
        .reraise],
     .handler (some (.glo "ForbiddenAttribute")) none
       [.expr (.call (.attr (.loc "self") "_log") [.fstr [.str "[CHK] - Forbidden setattr: ", .fmt "" (.loc "name"), .str " on ", .fmt "r" (.loc "object")]]),
        .reraise]]
     []
     []]

/-- checker.py:705-706 -/
def _instanceChecker : Fn where
  params := [("inst", none)]
  star := none
  dstar := none
  body :=
   [.ret (.call (.attr (.glo "_checkers") "get") [.attr (.loc "inst") "__class__", .glo "_defaultChecker"])]

/-- checker.py:709-717 -/
def moduleChecker : Fn where
  params := [("module", none)]
  star := none
  dstar := none
  body :=
   [.ret (.call (.attr (.glo "_checkers") "get") [.loc "module"])]

/-- checker.py:757-759 -/
def _BasicTypes.__setitem__ : Fn where
  params := [("self", none), ("name", none), ("value", none)]
  star := none
  dstar := none
  body :=
   [.expr (.call (.attr (.glo "dict") "__setitem__") [.loc "self", .loc "name", .loc "value"]),
    .assign (.sub (.glo "_checkers") (.loc "name")) (.loc "value")]

/-- checker.py:761-763 -/
def _BasicTypes.__delitem__ : Fn where
  params := [("self", none), ("name", none)]
  star := none
  dstar := none
  body :=
   [.expr (.call (.attr (.glo "dict") "__delitem__") [.loc "self", .loc "name"]),
    .del (.sub (.glo "_checkers") (.loc "name"))]

/-- checker.py:765-767 -/
def _BasicTypes.clear : Fn where
  params := [("self", none)]
  star := none
  dstar := none
  body :=
   [.raise (.glo "NotImplementedError")]

/-- checker.py:769-771 -/
def _BasicTypes.update : Fn where
  params := [("self", none), ("d", none)]
  star := none
  dstar := none
  body :=
   [.expr (.call (.attr (.glo "dict") "update") [.loc "self", .loc "d"]),
    .expr (.call (.attr (.glo "_checkers") "update") [.loc "d"])]

/-- checker.py:822-823 -/
def _Sequence.__len__ : Fn where
  params := [("self", none)]
  star := none
  dstar := none
  body :=
   [.raise (.call (.glo "NotImplementedError") [])]

/-- checker.py:825-826 -/
def _Sequence.__getitem__ : Fn where
  params := [("self", none), ("i", none)]
  star := none
  dstar := none
  body :=
   [.raise (.call (.glo "NotImplementedError") [])]

/-- checker.py:838-839 -/
def f : Fn where
  params := []
  star := none
  dstar := none
  body :=
   [.assign (.loc "%yield") (.list []),
    .aug "+" (.loc "%yield") (.list [.glo "f"]),
    .ret (.loc "%yield")]

/-- checker.py:920-932 -/
def _fixup_dictlike : Fn where
  params := [("dict_type", none)]
  star := none
  dstar := none
  body :=
   [.assign (.loc "empty_dict") (.call (.loc "dict_type") []),
    .assign (.loc "populated_dict") (.call (.loc "dict_type") [.dict [.tuple [.num (1), .num (2)]]]),
    .for (.loc "dictlike") (.tuple [.loc "empty_dict", .loc "populated_dict"])
     [.for (.loc "attr") (.tuple [.str "__iter__", .str "keys", .str "items", .str "values"])
       [.assign (.loc "obj") (.call (.call (.glo "getattr") [.loc "dictlike", .loc "attr"]) []),
        .assign (.loc "o_type") (.call (.glo "type") [.loc "obj"]),
        .if (.cmp .notIn (.loc "o_type") (.glo "_default_checkers"))
         [.assign (.sub (.glo "_default_checkers") (.loc "o_type")) (.glo "_iteratorChecker")]
         [],
        .assign (.loc "iter_type") (.call (.glo "type") [.call (.glo "iter") [.loc "obj"]]),
        .if (.cmp .notIn (.loc "iter_type") (.glo "_default_checkers"))
         [.assign (.sub (.glo "_default_checkers") (.loc "iter_type")) (.glo "_iteratorChecker")]
         []]]]

/-- checker.py:935-940 -/
def _fixup_odict : Fn where
  params := []
  star := none
  dstar := none
  body :=
   [.assign (.loc "OrderedDict") (.glo "collections.OrderedDict"),
    .expr (.call (.glo "_fixup_dictlike") [.loc "OrderedDict"])]

/-- checker.py:981-1011 -/
def _fixup_zope_interface : Fn where
  params := []
  star := none
  dstar := none
  body :=
   [.assign (.loc "alsoProvides") (.glo "zope.interface.alsoProvides"),
    .assign (.loc "providedBy") (.glo "zope.interface.providedBy"),
    .assign (.loc "I1") (.call (.glo "class") [.str "I1", .glo "Interface"]),
    .assign (.loc "I2") (.call (.glo "class") [.str "I2", .glo "Interface"]),
    .assign (.loc "Obj") (.call (.call (.glo "implementer") [.loc "I1"]) [.call (.glo "class") [.str "Obj"]]),
    .assign (.loc "o") (.call (.loc "Obj") []),
    .assign (.sub (.glo "_default_checkers") (.call (.glo "type") [.call (.loc "providedBy") [.loc "o"]])) (.glo "NoProxy"),
    .expr (.call (.loc "alsoProvides") [.loc "o", .loc "I2"]),
    .assign (.sub (.glo "_default_checkers") (.call (.glo "type") [.call (.loc "providedBy") [.loc "o"]])) (.glo "NoProxy")]

/-- checker.py:1041-1042 -/
def _fixup_itertools.pred : Fn where
  params := [("x", none)]
  star := none
  dstar := none
  body :=
   [.ret (.loc "x")]

/-- checker.py:1018-1069 -/
def _fixup_itertools : Fn where
  params := []
  star := none
  dstar := none
  body :=
   [.assign (.loc "itertools") (.glo "import itertools"),
    .assign (.loc "group") (.call (.attr (.loc "itertools") "groupby") [.list [.num (0)]]),
    .assign (.loc "type_group") (.call (.glo "type") [.loc "group"]),
    .if (.cmp .notIn (.loc "type_group") (.glo "_default_checkers"))
     [.assign (.sub (.glo "_default_checkers") (.loc "type_group")) (.glo "_iteratorChecker")]
     [],
    .assign (.loc "type_grouper") (.call (.glo "type") [.sub (.sub (.call (.glo "list") [.loc "group"]) (.num (0))) (.num (1))]),
    .if (.cmp .notIn (.loc "type_grouper") (.glo "_default_checkers"))
     [.assign (.sub (.glo "_default_checkers") (.loc "type_grouper")) (.glo "_iteratorChecker")]
     [],
    .fdef "pred" "_fixup_itertools.pred",
    .assign (.loc "iterable") (.tuple [.num (1), .num (2), .num (3)]),
    .assign (.loc "pred_iterable") (.tuple [.loc "pred", .loc "iterable"]),
    .for (.tuple [.loc "func", .loc "args"]) (.tuple [.tuple [.str "count", .tuple []], .tuple [.str "cycle", .tuple [.tuple []]], .tuple [.str "dropwhile", .loc "pred_iterable"], .tuple [.str "islice", .tuple [.loc "iterable", .num (2)]], .tuple [.str "permutations", .tuple [.loc "iterable"]], .tuple [.str "product", .tuple [.loc "iterable"]], .tuple [.str "repeat", .tuple [.num (1), .num (2)]], .tuple [.str "starmap", .loc "pred_iterable"], .tuple [.str "takewhile", .loc "pred_iterable"], .tuple [.str "tee", .tuple [.loc "iterable"]], .tuple [.str "zip_longest", .tuple [.loc "iterable"]], .tuple [.str "accumulate", .tuple [.loc "iterable"]], .tuple [.str "compress", .tuple [.loc "iterable", .tuple []]], .tuple [.str "combinations", .tuple [.loc "iterable", .num (1)]], .tuple [.str "combinations_with_replacement", .tuple [.loc "iterable", .num (1)]]])
     [.assign (.loc "func") (.call (.glo "getattr") [.loc "itertools", .loc "func"]),
      .assign (.loc "result") (.call (.loc "func") [.star (.loc "args")]),
      .if (.cmp .eq (.loc "func") (.attr (.loc "itertools") "tee"))
       [.assign (.loc "result") (.sub (.loc "result") (.num (0)))]
       [],
      .assign (.loc "tresult") (.call (.glo "type") [.loc "result"]),
      .if (.cmp .notIn (.loc "tresult") (.glo "_default_checkers"))
       [.assign (.sub (.glo "_default_checkers") (.loc "tresult")) (.glo "_iteratorChecker")]
       []]]

/-- checker.py:1076-1079 -/
def _clear : Fn where
  params := []
  star := none
  dstar := none
  body :=
   [.expr (.call (.attr (.glo "_checkers") "clear") []),
    .expr (.call (.attr (.glo "_checkers") "update") [.glo "_default_checkers"]),
    .expr (.call (.attr (.glo "_checkers") "update") [.glo "BasicTypes"])]

/-- checker.py:894-894 -/
def _lambda_894 : Fn where
  params := [("module", none)]
  star := none
  dstar := none
  body :=
   [.ret (.call (.attr (.glo "_checkers") "get") [.loc "module", .glo "_namedChecker"])]

/-- checker.py:963-973 -/
def _fixup_btrees : Fn where
  params := []
  star := none
  dstar := none
  body :=
   [.assign (.loc "BTrees") (.glo "import BTrees._base"),
    .assign (.sub (.glo "_default_checkers") (.attr (.attr (.loc "BTrees") "_base") "_TreeItems")) (.glo "_iteratorChecker"),
    .for (.loc "name") (.tuple [.str "IF", .str "II", .str "IO", .str "OI", .str "OO"])
     [.for (.loc "family_name") (.tuple [.str "family32", .str "family64"])
       [.assign (.loc "family") (.call (.glo "getattr") [.loc "BTrees", .loc "family_name"]),
        .assign (.loc "btree") (.attr (.call (.glo "getattr") [.loc "family", .loc "name"]) "BTree"),
        .expr (.call (.glo "_fixup_dictlike") [.loc "btree"])]]]

/-- checker.py:14-1089 -/
def _module : List Stmt :=
  [.assign (.glo "WATCH_CHECKERS") (.num (0)),
   .if (.call (.attr (.attr (.glo "os") "environ") "get") [.str "ZOPE_WATCH_CHECKERS"])
    [.try
      [.assign (.glo "WATCH_CHECKERS") (.call (.glo "int") [.call (.attr (.attr (.glo "os") "environ") "get") [.str "ZOPE_WATCH_CHECKERS"]])]
      [.handler (some (.glo "ValueError")) none
        [.assign (.glo "WATCH_CHECKERS") (.num (1))]]
      []
      []]
    [],
   .expr (.call (.glo "directlyProvides") [.glo "ProxyFactory", .glo "ISecurityProxyFactory"]),
   .assign (.attr (.glo "proxy") "ProxyFactory") (.glo "ProxyFactory"),
   .assign (.glo "Checker") (.glo "CheckerPy"),
   .assign (.glo "CheckerPublic") (.call (.glo "Global") [.str "CheckerPublic"]),
   .assign (.glo "CP_HACK_XXX") (.glo "CheckerPublic"),
   .assign (.glo "d") (.dict []),
   .assign (.glo "CheckerPublic") (.call (.glo "Proxy") [.glo "CheckerPublic", .call (.glo "Checker") [.glo "d"]]),
   .assign (.sub (.glo "d") (.str "__reduce__")) (.glo "CheckerPublic"),
   .assign (.sub (.glo "d") (.str "__module__")) (.glo "CheckerPublic"),
   .assign (.glo "selectChecker") (.glo "selectCheckerPy"),
   .assign (.glo "DEFINABLE_TYPES") (.tuple [.glo "type", .attr (.glo "types") "ModuleType"]),
   .assign (.glo "NoProxy") (.call (.glo "object") []),
   .assign (.glo "_checkers") (.dict []),
   .assign (.glo "_defaultChecker") (.call (.glo "Checker") [.dict []]),
   .assign (.glo "_available_by_default") (.list []),
   .assign (.glo "_c_available") (.not (.glo "PURE_PYTHON")),
   .if (.glo "_c_available")
    [.try
      [.expr (.glo "import zope.security._zope_security_checker")]
      [.handler (some (.tuple [.glo "ImportError", .glo "AttributeError"])) none
        [.assign (.glo "_c_available") (.false)]]
      []
      []]
    [],
   .if (.glo "_c_available")
    [.assign (.glo "Checker") (.glo "zope.security._zope_security_checker.Checker"),
     .assign (.glo "NoProxy") (.glo "zope.security._zope_security_checker.NoProxy"),
     .assign (.glo "_available_by_default") (.glo "zope.security._zope_security_checker._available_by_default"),
     .assign (.glo "_checkers") (.glo "zope.security._zope_security_checker._checkers"),
     .assign (.glo "_defaultChecker") (.glo "zope.security._zope_security_checker._defaultChecker"),
     .assign (.glo "selectChecker") (.glo "zope.security._zope_security_checker.selectChecker"),
     .expr (.call (.attr (.attr (.glo "zope") "interface") "classImplements") [.glo "Checker", .glo "INameBasedChecker"])]
    [],
   .assign (.glo "_getChecker") (.attr (.glo "_checkers") "get"),
   .if (.glo "WATCH_CHECKERS")
    [.assign (.glo "Checker") (.glo "WatchingChecker"),
     .assign (.glo "CombinedChecker") (.glo "WatchingCombinedChecker"),
     .if (.not (.glo "_c_available"))
      [.assign (.attr (.glo "_defaultChecker") "__class__") (.glo "Checker")]
      []]
    [],
   .assign (.sub (.glo "_available_by_default") (.slice (.none) (.none))) (.list [.str "__lt__", .str "__le__", .str "__eq__", .str "__gt__", .str "__ge__", .str "__ne__", .str "__hash__", .str "__bool__", .str "__class__", .str "__providedBy__", .str "__implements__", .str "__repr__", .str "__conform__", .str "__name__", .str "__parent__"]),
   .assign (.glo "_callableChecker") (.call (.glo "NamesChecker") [.list [.str "__str__", .str "__name__", .str "__call__"]]),
   .assign (.glo "_typeChecker") (.call (.glo "NamesChecker") [.list [.str "__str__", .str "__name__", .str "__module__", .str "__bases__", .str "__mro__", .str "__implemented__"]]),
   .assign (.glo "_namedChecker") (.call (.glo "NamesChecker") [.list [.str "__name__"]]),
   .assign (.glo "_iteratorChecker") (.call (.glo "NamesChecker") [.list [.str "next", .str "__next__", .str "__iter__", .str "__len__", .str "__length_hint__"]]),
   .assign (.glo "_setChecker") (.call (.glo "NamesChecker") [.list [.str "__iter__", .str "__len__", .str "__str__", .str "__contains__", .str "copy", .str "difference", .str "intersection", .str "issubset", .str "issuperset", .str "symmetric_difference", .str "union", .str "__and__", .str "__or__", .str "__sub__", .str "__xor__", .str "__rand__", .str "__ror__", .str "__rsub__", .str "__rxor__", .str "__eq__", .str "__ne__", .str "__lt__", .str "__gt__", .str "__le__", .str "__ge__"]]),
   .assign (.glo "_basic_types") (.dict [.tuple [.glo "object", .glo "NoProxy"], .tuple [.glo "int", .glo "NoProxy"], .tuple [.glo "float", .glo "NoProxy"], .tuple [.glo "complex", .glo "NoProxy"], .tuple [.call (.glo "type") [.none], .glo "NoProxy"], .tuple [.glo "str", .glo "NoProxy"], .tuple [.glo "bytes", .glo "NoProxy"], .tuple [.glo "Message", .glo "NoProxy"], .tuple [.glo "bool", .glo "NoProxy"], .tuple [.attr (.glo "datetime") "timedelta", .glo "NoProxy"], .tuple [.attr (.glo "datetime") "datetime", .glo "NoProxy"], .tuple [.attr (.glo "datetime") "date", .glo "NoProxy"], .tuple [.attr (.glo "datetime") "time", .glo "NoProxy"], .tuple [.attr (.glo "datetime") "tzinfo", .glo "NoProxy"], .tuple [.call (.glo "type") [.call (.attr (.dict []) "values") []], .glo "NoProxy"], .tuple [.call (.glo "type") [.call (.attr (.dict []) "keys") []], .glo "NoProxy"], .tuple [.call (.glo "type") [.call (.attr (.dict []) "items") []], .glo "NoProxy"]]),
   .try
    [.expr (.glo "import pytz")]
    [.handler (some (.glo "ImportError")) none
      [.pass]]
    [.assign (.sub (.glo "_basic_types") (.call (.glo "type") [.attr (.glo "pytz") "UTC"])) (.glo "NoProxy")]
    [],
   .assign (.glo "BasicTypes") (.call (.glo "_BasicTypes") [.glo "_basic_types"]),
   .assign (.glo "_Declaration_checker") (.call (.glo "InterfaceChecker") [.glo "IDeclaration", .kw "_implied" (.glo "CheckerPublic"), .kw "subscribe" (.glo "CheckerPublic"), .kw "unsubscribe" (.glo "CheckerPublic"), .kw "__call__" (.glo "CheckerPublic")]),
   .assign (.glo "_default_checkers") (.dict [.tuple [.glo "dict", .call (.glo "NamesChecker") [.list [.str "__getitem__", .str "__len__", .str "__iter__", .str "get", .str "has_key", .str "copy", .str "__str__", .str "keys", .str "values", .str "items", .str "iterkeys", .str "iteritems", .str "itervalues", .str "__contains__"]]], .tuple [.glo "list", .call (.glo "NamesChecker") [.list [.str "__getitem__", .str "__len__", .str "__iter__", .str "__contains__", .str "index", .str "count", .str "__str__", .str "__add__", .str "__radd__"]]], .tuple [.glo "set", .glo "_setChecker"], .tuple [.glo "frozenset", .glo "_setChecker"], .tuple [.attr (.glo "decimal") "Decimal", .call (.glo "NamesChecker") [.list [.str "__bool__", .str "__cmp__", .str "__eq__", .str "__ne__", .str "__hash__", .str "__str__", .str "__neg__", .str "__pos__", .str "__abs__", .str "__add__", .str "__radd__", .str "__sub__", .str "__rsub__", .str "__mul__", .str "__rmul__", .str "__truediv__", .str "__rtruediv__", .str "__divmod__", .str "__rdivmod__", .str "__mod__", .str "__rmod__", .str "__floordiv__", .str "__rfloordiv__", .str "__float__", .str "__int__", .str "__pow__", .str "__rpow__", .str "adjusted", .str "as_tuple", .str "compare", .str "max", .str "min", .str "normalize", .str "quantize", .str "remainder_near", .str "same_quantum", .str "sqrt", .str "to_eng_string", .str "to_integral"]]], .tuple [.glo "tuple", .call (.glo "NamesChecker") [.list [.str "__getitem__", .str "__add__", .str "__radd__", .str "__contains__", .str "__len__", .str "__iter__", .str "__str__"]]], .tuple [.glo "Proxy", .glo "NoProxy"], .tuple [.call (.glo "type") [.call (.attr (.glo "weakref") "ref") [.call (.glo "_Sequence") []]], .call (.glo "NamesChecker") [.list [.str "__call__"]]], .tuple [.attr (.glo "types") "FunctionType", .glo "_callableChecker"], .tuple [.attr (.glo "types") "MethodType", .glo "_callableChecker"], .tuple [.attr (.glo "types") "BuiltinFunctionType", .glo "_callableChecker"], .tuple [.attr (.glo "types") "BuiltinMethodType", .glo "_callableChecker"], .tuple [.call (.glo "type") [.attr (.call (.attr (.glo "io") "BytesIO") []) "getbuffer"], .glo "_callableChecker"], .tuple [.call (.glo "type") [.attr (.tuple []) "__repr__"], .glo "_callableChecker"], .tuple [.glo "type", .glo "_typeChecker"], .tuple [.attr (.glo "types") "ModuleType", .glo "_lambda_894"], .tuple [.call (.glo "type") [.call (.glo "iter") [.list []]], .glo "_iteratorChecker"], .tuple [.call (.glo "type") [.call (.glo "iter") [.tuple []]], .glo "_iteratorChecker"], .tuple [.call (.glo "type") [.call (.glo "iter") [.dict []]], .glo "_iteratorChecker"], .tuple [.call (.glo "type") [.call (.glo "iter") [.call (.glo "set") []]], .glo "_iteratorChecker"], .tuple [.call (.glo "type") [.call (.glo "iter") [.call (.glo "_Sequence") []]], .glo "_iteratorChecker"], .tuple [.call (.glo "type") [.call (.glo "f") []], .glo "_iteratorChecker"], .tuple [.call (.glo "type") [.glo "Interface"], .call (.glo "InterfaceChecker") [.glo "IInterface", .kw "__str__" (.glo "CheckerPublic"), .kw "_implied" (.glo "CheckerPublic"), .kw "subscribe" (.glo "CheckerPublic"), .kw "__len__" (.glo "CheckerPublic")]], .tuple [.attr (.attr (.attr (.glo "zope") "interface") "interface") "Method", .call (.glo "InterfaceChecker") [.attr (.attr (.attr (.glo "zope") "interface") "interfaces") "IMethod"]], .tuple [.attr (.attr (.attr (.glo "zope") "interface") "declarations") "ProvidesClass", .glo "_Declaration_checker"], .tuple [.attr (.attr (.attr (.glo "zope") "interface") "declarations") "ClassProvides", .glo "_Declaration_checker"], .tuple [.attr (.attr (.attr (.glo "zope") "interface") "declarations") "Implements", .glo "_Declaration_checker"], .tuple [.attr (.attr (.attr (.glo "zope") "interface") "declarations") "Declaration", .glo "_Declaration_checker"], .tuple [.attr (.glo "abc") "ABCMeta", .glo "_typeChecker"]]),
   .expr (.call (.glo "_fixup_odict") []),
   .try
    [.expr (.glo "import BTrees")]
    [.handler (some (.glo "ImportError")) none
      [.pass]]
    [.expr (.call (.glo "_fixup_btrees") [])]
    [],
   .expr (.call (.glo "_fixup_zope_interface") []),
   .expr (.call (.glo "_fixup_itertools") []),
   .expr (.call (.glo "_clear") []),
   .try
    [.assign (.glo "addCleanUp") (.glo "zope.testing.cleanup.addCleanUp")]
    [.handler (some (.glo "ImportError")) none
      [.pass]]
    [.expr (.call (.glo "addCleanUp") [.glo "_clear"])]
    []]

/-- checker.py:199-290 -/
def CheckerPy.methods : List (Name × Fn) :=
  [("__init__", CheckerPy.__init__),
   ("permission_id", CheckerPy.permission_id),
   ("setattr_permission_id", CheckerPy.setattr_permission_id),
   ("check_setattr", CheckerPy.check_setattr),
   ("check", CheckerPy.check),
   ("proxy", CheckerPy.proxy)]

/-- checker.py:297-322 -/
def TracebackSupplement.methods : List (Name × Fn) :=
  [("__init__", TracebackSupplement.__init__),
   ("getInfo", TracebackSupplement.getInfo)]

/-- checker.py:325-345 -/
def Global.methods : List (Name × Fn) :=
  [("__init__", Global.__init__),
   ("__reduce__", Global.__reduce__),
   ("__repr__", Global.__repr__)]

/-- checker.py:532-588 -/
def CombinedChecker.methods : List (Name × Fn) :=
  [("__init__", CombinedChecker.__init__),
   ("check", CombinedChecker.check),
   ("check_setattr", CombinedChecker.check_setattr)]

/-- checker.py:591-669 -/
def CheckerLoggingMixin.methods : List (Name × Fn) :=
  [("_log", CheckerLoggingMixin._log),
   ("check", CheckerLoggingMixin.check),
   ("check_getattr", CheckerLoggingMixin.check_getattr),
   ("check_setattr", CheckerLoggingMixin.check_setattr)]

/-- checker.py:751-771 -/
def _BasicTypes.methods : List (Name × Fn) :=
  [("__setitem__", _BasicTypes.__setitem__),
   ("__delitem__", _BasicTypes.__delitem__),
   ("clear", _BasicTypes.clear),
   ("update", _BasicTypes.update)]

/-- checker.py:821-826 -/
def _Sequence.methods : List (Name × Fn) :=
  [("__len__", _Sequence.__len__),
   ("__getitem__", _Sequence.__getitem__)]

end ZS.Src.Checker
