import Verif.Model.PyCode

/-!
# The functions of proxy.py

Written by tools/pysource.py from the text of the file; do not edit.  `_loops` are the
module-level `for` statements, `C.methods` the functions in the body of the class `C`.
-/

namespace ZS.Src.Proxy
open ZS ZS.PyC

/-- proxy.py:30-37 -/
def _check_name._wrapper : Fn where
  params := [("self", none)]
  star := (some "args")
  dstar := (some "kw")
  body :=
   [.assign (.loc "wrapped") (.call (.attr (.call (.glo "super") [.glo "PyProxyBase", .loc "self"]) "__getattribute__") [.str "_wrapped"]),
    .assign (.loc "checker") (.call (.attr (.call (.glo "super") [.glo "PyProxyBase", .loc "self"]) "__getattribute__") [.str "_checker"]),
    .expr (.call (.attr (.loc "checker") "check") [.loc "wrapped", .loc "name"]),
    .assign (.loc "res") (.call (.loc "meth") [.loc "self", .star (.loc "args"), .dstar (.loc "kw")]),
    .if (.not (.loc "wrap_result"))
     [.ret (.loc "res")]
     [],
    .ret (.call (.attr (.loc "checker") "proxy") [.loc "res"])]

/-- proxy.py:27-38 -/
def _check_name : Fn where
  params := [("meth", none), ("wrap_result", some (.true))]
  star := none
  dstar := none
  body :=
   [.assign (.loc "name") (.attr (.loc "meth") "__name__"),
    .fdef "_wrapper" "_check_name._wrapper",
    .ret (.call (.attr (.glo "functools") "update_wrapper") [.loc "_wrapper", .loc "meth"])]

/-- proxy.py:44-54 -/
def _check_name_inplace._wrapper : Fn where
  params := [("self", none)]
  star := (some "args")
  dstar := (some "kw")
  body :=
   [.assign (.loc "wrapped") (.call (.attr (.call (.glo "super") [.glo "PyProxyBase", .loc "self"]) "__getattribute__") [.str "_wrapped"]),
    .assign (.loc "checker") (.call (.attr (.call (.glo "super") [.glo "PyProxyBase", .loc "self"]) "__getattribute__") [.str "_checker"]),
    .expr (.call (.attr (.loc "checker") "check") [.loc "wrapped", .loc "name"]),
    .assign (.loc "w_meth") (.call (.glo "getattr") [.loc "wrapped", .loc "name", .none]),
    .if (.cmp .isNot (.loc "w_meth") (.none))
     [.assign (.attr (.loc "self") "_wrapped") (.call (.loc "w_meth") [.star (.loc "args"), .dstar (.loc "kw")]),
      .ret (.loc "self")]
     [],
    .assign (.loc "x_name") (.bin "%" (.str "__%s__") (.sub (.loc "name") (.slice (.num (3)) (.num (-2))))),
    .ret (.call (.glo "ProxyPy") [.call (.call (.glo "getattr") [.loc "wrapped", .loc "x_name"]) [.star (.loc "args"), .dstar (.loc "kw")], .loc "checker"])]

/-- proxy.py:41-55 -/
def _check_name_inplace : Fn where
  params := [("meth", none)]
  star := none
  dstar := none
  body :=
   [.assign (.loc "name") (.attr (.loc "meth") "__name__"),
    .fdef "_wrapper" "_check_name_inplace._wrapper",
    .ret (.call (.attr (.glo "functools") "update_wrapper") [.loc "_wrapper", .loc "meth"])]

/-- proxy.py:58-66 -/
def _fmt_address : Fn where
  params := [("obj", none)]
  star := none
  dstar := none
  body :=
   [.if (.cmp .ne (.attr (.glo "sys") "platform") (.str "win32"))
     [.ret (.bin "%" (.str "0x%0x") (.call (.glo "id") [.loc "obj"]))]
     [],
    .if (.cmp .lt (.attr (.glo "sys") "maxsize") (.bin "**" (.num (2)) (.num (32))))
     [.ret (.bin "%" (.str "0x%08X") (.call (.glo "id") [.loc "obj"]))]
     [],
    .ret (.bin "%" (.str "0x%016X") (.call (.glo "id") [.loc "obj"]))]

/-- proxy.py:82-86 -/
def ProxyPy.__new__ : Fn where
  params := [("cls", none), ("value", none), ("checker", none)]
  star := none
  dstar := none
  body :=
   [.assign (.loc "inst") (.call (.attr (.call (.glo "super") []) "__new__") [.loc "cls"]),
    .assign (.attr (.loc "inst") "_wrapped") (.loc "value"),
    .assign (.attr (.loc "inst") "_checker") (.loc "checker"),
    .ret (.loc "inst")]

/-- proxy.py:88-92 -/
def ProxyPy.__init__ : Fn where
  params := [("self", none), ("value", none), ("checker", none)]
  star := none
  dstar := none
  body :=
   [.if (.cmp .is (.loc "checker") (.none))
     [.raise (.call (.glo "ValueError") [.str "checker may now be None"])]
     [],
    .assign (.attr (.loc "self") "_wrapped") (.loc "value"),
    .assign (.attr (.loc "self") "_checker") (.loc "checker")]

/-- proxy.py:95-134 -/
def ProxyPy.__getattribute__ : Fn where
  params := [("self", none), ("name", none)]
  star := none
  dstar := none
  body :=
   [.if (.cmp .isIn (.loc "name") (.tuple [.str "_wrapped", .str "_checker"]))
     [.if (.cmp .isNot (.call (.attr (.attr (.call (.attr (.glo "sys") "_getframe") [.num (1)]) "f_locals") "get") [.str "self"]) (.loc "self"))
       [.raise (.call (.glo "AttributeError") [.loc "name"])]
       []]
     [],
    .assign (.loc "wrapped") (.call (.attr (.call (.glo "super") []) "__getattribute__") [.str "_wrapped"]),
    .if (.cmp .eq (.loc "name") (.str "_wrapped"))
     [.ret (.loc "wrapped")]
     [],
    .assign (.loc "checker") (.call (.attr (.call (.glo "super") []) "__getattribute__") [.str "_checker"]),
    .if (.cmp .eq (.loc "name") (.str "_checker"))
     [.ret (.loc "checker")]
     [],
    .if (.cmp .notIn (.loc "name") (.tuple [.str "__cmp__", .str "__hash__", .str "__bool__", .str "__lt__", .str "__le__", .str "__eq__", .str "__ne__", .str "__ge__", .str "__gt__"]))
     [.expr (.call (.attr (.loc "checker") "check_getattr") [.loc "wrapped", .loc "name"])]
     [],
    .if (.cmp .isIn (.loc "name") (.tuple [.str "__reduce__", .str "__reduce_ex__"]))
     [.assign (.loc "val") (.call (.glo "getattr") [.loc "wrapped", .loc "name"])]
     [.if (.cmp .eq (.loc "name") (.str "__module__"))
       [.assign (.loc "val") (.call (.glo "getattr") [.loc "wrapped", .loc "name"])]
       [.assign (.loc "val") (.call (.attr (.call (.glo "super") []) "__getattribute__") [.loc "name"])]],
    .ret (.call (.attr (.loc "checker") "proxy") [.loc "val"])]

/-- proxy.py:136-159 -/
def ProxyPy.__getattr__ : Fn where
  params := [("self", none), ("name", none)]
  star := none
  dstar := none
  body :=
   [.assign (.loc "wrapped") (.call (.attr (.call (.glo "super") []) "__getattribute__") [.str "_wrapped"]),
    .assign (.loc "checker") (.call (.attr (.call (.glo "super") []) "__getattribute__") [.str "_checker"]),
    .expr (.call (.attr (.loc "checker") "check_getattr") [.loc "wrapped", .loc "name"]),
    .raise (.call (.glo "AttributeError") [.loc "name"])]

/-- proxy.py:161-167 -/
def ProxyPy.__setattr__ : Fn where
  params := [("self", none), ("name", none), ("value", none)]
  star := none
  dstar := none
  body :=
   [.if (.cmp .isIn (.loc "name") (.tuple [.str "_wrapped", .str "_checker"]))
     [.ret (.call (.attr (.call (.glo "super") []) "__setattr__") [.loc "name", .loc "value"])]
     [],
    .assign (.loc "wrapped") (.call (.attr (.call (.glo "super") []) "__getattribute__") [.str "_wrapped"]),
    .assign (.loc "checker") (.call (.attr (.call (.glo "super") []) "__getattribute__") [.str "_checker"]),
    .expr (.call (.attr (.loc "checker") "check_setattr") [.loc "wrapped", .loc "name"]),
    .expr (.call (.glo "setattr") [.loc "wrapped", .loc "name", .loc "value"])]

/-- proxy.py:169-175 -/
def ProxyPy.__delattr__ : Fn where
  params := [("self", none), ("name", none)]
  star := none
  dstar := none
  body :=
   [.if (.cmp .isIn (.loc "name") (.tuple [.str "_wrapped", .str "_checker"]))
     [.raise (.call (.glo "AttributeError") [])]
     [],
    .assign (.loc "wrapped") (.call (.attr (.call (.glo "super") []) "__getattribute__") [.str "_wrapped"]),
    .assign (.loc "checker") (.call (.attr (.call (.glo "super") []) "__getattribute__") [.str "_checker"]),
    .expr (.call (.attr (.loc "checker") "check_setattr") [.loc "wrapped", .loc "name"]),
    .expr (.call (.glo "delattr") [.loc "wrapped", .loc "name"])]

/-- proxy.py:177-180 -/
def ProxyPy.__lt__ : Fn where
  params := [("self", none), ("other", none)]
  star := none
  dstar := none
  body :=
   [.assign (.loc "wrapped") (.call (.attr (.call (.glo "super") []) "__getattribute__") [.str "_wrapped"]),
    .ret (.cmp .lt (.loc "wrapped") (.loc "other"))]

/-- proxy.py:182-185 -/
def ProxyPy.__le__ : Fn where
  params := [("self", none), ("other", none)]
  star := none
  dstar := none
  body :=
   [.assign (.loc "wrapped") (.call (.attr (.call (.glo "super") []) "__getattribute__") [.str "_wrapped"]),
    .ret (.cmp .le (.loc "wrapped") (.loc "other"))]

/-- proxy.py:187-190 -/
def ProxyPy.__eq__ : Fn where
  params := [("self", none), ("other", none)]
  star := none
  dstar := none
  body :=
   [.assign (.loc "wrapped") (.call (.attr (.call (.glo "super") []) "__getattribute__") [.str "_wrapped"]),
    .ret (.cmp .eq (.loc "wrapped") (.loc "other"))]

/-- proxy.py:192-195 -/
def ProxyPy.__ne__ : Fn where
  params := [("self", none), ("other", none)]
  star := none
  dstar := none
  body :=
   [.assign (.loc "wrapped") (.call (.attr (.call (.glo "super") []) "__getattribute__") [.str "_wrapped"]),
    .ret (.cmp .ne (.loc "wrapped") (.loc "other"))]

/-- proxy.py:197-200 -/
def ProxyPy.__ge__ : Fn where
  params := [("self", none), ("other", none)]
  star := none
  dstar := none
  body :=
   [.assign (.loc "wrapped") (.call (.attr (.call (.glo "super") []) "__getattribute__") [.str "_wrapped"]),
    .ret (.cmp .ge (.loc "wrapped") (.loc "other"))]

/-- proxy.py:202-205 -/
def ProxyPy.__gt__ : Fn where
  params := [("self", none), ("other", none)]
  star := none
  dstar := none
  body :=
   [.assign (.loc "wrapped") (.call (.attr (.call (.glo "super") []) "__getattribute__") [.str "_wrapped"]),
    .ret (.cmp .gt (.loc "wrapped") (.loc "other"))]

/-- proxy.py:207-210 -/
def ProxyPy.__hash__ : Fn where
  params := [("self", none)]
  star := none
  dstar := none
  body :=
   [.assign (.loc "wrapped") (.call (.attr (.call (.glo "super") []) "__getattribute__") [.str "_wrapped"]),
    .ret (.call (.glo "hash") [.loc "wrapped"])]

/-- proxy.py:212-215 -/
def ProxyPy.__bool__ : Fn where
  params := [("self", none)]
  star := none
  dstar := none
  body :=
   [.assign (.loc "wrapped") (.call (.attr (.call (.glo "super") []) "__getattribute__") [.str "_wrapped"]),
    .ret (.call (.glo "bool") [.loc "wrapped"])]

/-- proxy.py:217-225 -/
def ProxyPy.__length_hint__ : Fn where
  params := [("self", none)]
  star := none
  dstar := none
  body :=
   [.assign (.loc "wrapped") (.call (.attr (.call (.glo "super") []) "__getattribute__") [.str "_wrapped"]),
    .try
     [.assign (.loc "hint") (.attr (.loc "wrapped") "__length_hint__")]
     [.handler (some (.glo "AttributeError")) none
       [.ret (.glo "NotImplemented")]]
     [.ret (.call (.loc "hint") [])]
     []]

/-- proxy.py:227-240 -/
def ProxyPy.__str__ : Fn where
  params := [("self", none)]
  star := none
  dstar := none
  body :=
   [.try
     [.ret (.call (.call (.glo "_check_name") [.attr (.glo "PyProxyBase") "__str__"]) [.loc "self"])]
     [.handler (some (.glo "TypeError")) none
       [.reraise],
     .handler none none
       [.assign (.loc "wrapped") (.call (.attr (.call (.glo "super") []) "__getattribute__") [.str "_wrapped"]),
        .ret (.call (.attr (.str "<security proxied {}.{} instance at {}>") "format") [.attr (.attr (.loc "wrapped") "__class__") "__module__", .attr (.attr (.loc "wrapped") "__class__") "__name__", .call (.glo "_fmt_address") [.loc "wrapped"]])]]
     []
     []]

/-- proxy.py:242-254 -/
def ProxyPy.__repr__ : Fn where
  params := [("self", none)]
  star := none
  dstar := none
  body :=
   [.try
     [.ret (.call (.call (.glo "_check_name") [.attr (.glo "PyProxyBase") "__repr__"]) [.loc "self"])]
     [.handler (some (.glo "TypeError")) none
       [.reraise],
     .handler none none
       [.assign (.loc "wrapped") (.call (.attr (.call (.glo "super") []) "__getattribute__") [.str "_wrapped"]),
        .ret (.call (.attr (.str "<security proxied {}.{} instance at {}>") "format") [.attr (.attr (.loc "wrapped") "__class__") "__module__", .attr (.attr (.loc "wrapped") "__class__") "__name__", .call (.glo "_fmt_address") [.loc "wrapped"]])]]
     []
     []]

/-- proxy.py:339-340 -/
def getCheckerPy : Fn where
  params := [("proxy", none)]
  star := none
  dstar := none
  body :=
   [.ret (.call (.attr (.call (.glo "super") [.glo "ProxyPy", .loc "proxy"]) "__getattribute__") [.str "_checker"])]

/-- proxy.py:346-349 -/
def getObjectPy : Fn where
  params := [("proxy", none)]
  star := none
  dstar := none
  body :=
   [.if (.not (.call (.glo "_builtin_isinstance") [.loc "proxy", .glo "ProxyPy"]))
     [.ret (.loc "proxy")]
     [],
    .ret (.call (.attr (.call (.glo "super") [.glo "ProxyPy", .loc "proxy"]) "__getattribute__") [.str "_wrapped"])]

/-- proxy.py:372-376 -/
def getTestProxyItems : Fn where
  params := [("proxy", none)]
  star := none
  dstar := none
  body :=
   [.assign (.loc "checker") (.call (.glo "getChecker") [.loc "proxy"]),
    .ret (.call (.glo "sorted") [.call (.attr (.attr (.loc "checker") "get_permissions") "items") []])]

/-- proxy.py:379-386 -/
def isinstance : Fn where
  params := [("object", none), ("cls", none)]
  star := none
  dstar := none
  body :=
   [.ret (.call (.glo "_builtin_isinstance") [.call (.glo "removeSecurityProxy") [.loc "object"], .loc "cls"])]

/-- proxy.py:257-336 -/
def _loops : Fn where
  params := []
  star := none
  dstar := none
  body :=
   [.for (.loc "name") (.list [.str "__call__", .str "__reduce__", .str "__reduce_ex__", .str "__getitem__", .str "__setitem__", .str "__delitem__", .str "__iter__", .str "__next__", .str "__contains__", .str "__neg__", .str "__pos__", .str "__abs__", .str "__invert__", .str "__complex__", .str "__int__", .str "__float__", .str "__index__", .str "__add__", .str "__sub__", .str "__mul__", .str "__truediv__", .str "__floordiv__", .str "__mod__", .str "__divmod__", .str "__pow__", .str "__radd__", .str "__rsub__", .str "__rmul__", .str "__rtruediv__", .str "__rfloordiv__", .str "__rmod__", .str "__rdivmod__", .str "__rpow__", .str "__lshift__", .str "__rshift__", .str "__and__", .str "__xor__", .str "__or__", .str "__rlshift__", .str "__rrshift__", .str "__rand__", .str "__rxor__", .str "__ror__"])
     [.assign (.loc "meth") (.call (.glo "getattr") [.glo "PyProxyBase", .loc "name"]),
      .expr (.call (.glo "setattr") [.glo "ProxyPy", .loc "name", .call (.glo "_check_name") [.loc "meth"]])],
    .for (.loc "name") (.tuple [.str "__len__"])
     [.assign (.loc "meth") (.call (.glo "getattr") [.glo "PyProxyBase", .loc "name"]),
      .expr (.call (.glo "setattr") [.glo "ProxyPy", .loc "name", .call (.glo "_check_name") [.loc "meth", .false]])],
    .for (.loc "name") (.list [.str "__iadd__", .str "__isub__", .str "__imul__", .str "__itruediv__", .str "__ifloordiv__", .str "__imod__", .str "__ilshift__", .str "__irshift__", .str "__iand__", .str "__ixor__", .str "__ior__", .str "__ipow__"])
     [.assign (.loc "meth") (.call (.glo "getattr") [.glo "PyProxyBase", .loc "name"]),
      .expr (.call (.glo "setattr") [.glo "ProxyPy", .loc "name", .call (.glo "_check_name_inplace") [.loc "meth"]])]]

/-- proxy.py:69-254 -/
def ProxyPy.methods : List (Name × Fn) :=
  [("__new__", ProxyPy.__new__),
   ("__init__", ProxyPy.__init__),
   ("__getattribute__", ProxyPy.__getattribute__),
   ("__getattr__", ProxyPy.__getattr__),
   ("__setattr__", ProxyPy.__setattr__),
   ("__delattr__", ProxyPy.__delattr__),
   ("__lt__", ProxyPy.__lt__),
   ("__le__", ProxyPy.__le__),
   ("__eq__", ProxyPy.__eq__),
   ("__ne__", ProxyPy.__ne__),
   ("__ge__", ProxyPy.__ge__),
   ("__gt__", ProxyPy.__gt__),
   ("__hash__", ProxyPy.__hash__),
   ("__bool__", ProxyPy.__bool__),
   ("__length_hint__", ProxyPy.__length_hint__),
   ("__str__", ProxyPy.__str__),
   ("__repr__", ProxyPy.__repr__)]

end ZS.Src.Proxy
