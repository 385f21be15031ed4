import Verif.Model.CPlain

/-!
# The functions of the collector and of the initialisation as syntax trees

Written by tools/csource.py from the text of _zope_security_checker.c and _proxy.c; do not edit.
-/

namespace ZS.CI
namespace Src

/-! ## _zope_security_checker.c -/

/-- _zope_security_checker.c:338-343 -/
def Checker_clear : List T :=
  [.eval (.call (.id "CLEAR") [.fld (.id "self") "getperms"]),
   .eval (.call (.id "CLEAR") [.fld (.id "self") "setperms"]),
   .ret (.int 0)]

/-- _zope_security_checker.c:346-351 -/
def Checker_dealloc : List T :=
  [.eval (.call (.id "PyObject_GC_UnTrack") [.id "self"]),
   .eval (.call (.id "Checker_clear") [.id "self"]),
   .eval (.call (.fld (.call (.id "Py_TYPE") [.id "self"]) "tp_free") [.id "self"])]

/-- _zope_security_checker.c:354-362 -/
def Checker_traverse : List T :=
  [.guard (.and (.ne (.fld (.id "self") "getperms") .null) (.lt (.call (.id "visit") [.fld (.id "self") "getperms", .id "arg"]) (.int 0))) (.int (-1)),
   .guard (.and (.ne (.fld (.id "self") "setperms") .null) (.lt (.call (.id "visit") [.fld (.id "self") "setperms", .id "arg"]) (.int 0))) (.int (-1)),
   .ret (.int 0)]

/-- _zope_security_checker.c:567-673 -/
def PyInit__zope_security_checker : List T :=
  [.moduleDef "_zope_security_checker" "module_functions",
   .eval (.set (.id "mod") (.call (.id "PyModule_Create") [.ref (.id "moduledef")])),
   .guard (.eq (.id "mod") .null) .null,
   .eval (.set (.fld (.id "CheckerType") "tp_new") (.id "PyType_GenericNew")),
   .guard (.lt (.call (.id "PyType_Ready") [.ref (.id "CheckerType")]) (.int 0)) .null,
   .eval (.set (.id "_defaultChecker") (.call (.id "PyObject_CallFunction") [.ref (.id "CheckerType"), .str "{}"])),
   .guard (.eq (.id "_defaultChecker") .null) .null,
   .guard (.eq (.set (.id "str_checkPermission") (.call (.id "PyUnicode_InternFromString") [.str "checkPermission"])) .null) .null,
   .guard (.eq (.set (.id "str___Security_checker__") (.call (.id "PyUnicode_InternFromString") [.str "__Security_checker__"])) .null) .null,
   .guard (.eq (.set (.id "str_interaction") (.call (.id "PyUnicode_InternFromString") [.str "interaction"])) .null) .null,
   .guard (.eq (.set (.id "_checkers") (.call (.id "PyDict_New") [])) .null) .null,
   .eval (.set (.id "NoProxy") (.call (.id "PyObject_CallObject") [.ref (.id "PyBaseObject_Type"), .null])),
   .guard (.eq (.id "NoProxy") .null) .null,
   .guard (.eq (.set (.id "m") (.call (.id "PyImport_ImportModule") [.str "zope.security._proxy"])) .null) .null,
   .guard (.eq (.set (.id "Proxy") (.call (.id "PyObject_GetAttrString") [.id "m", .str "_Proxy"])) .null) .null,
   .eval (.call (.id "Py_DECREF") [.id "m"]),
   .guard (.eq (.set (.id "m") (.call (.id "PyImport_ImportModule") [.str "zope.security._definitions"])) .null) .null,
   .eval (.set (.id "thread_local") (.call (.id "PyObject_GetAttrString") [.id "m", .str "thread_local"])),
   .guard (.eq (.id "thread_local") .null) .null,
   .eval (.call (.id "Py_DECREF") [.id "m"]),
   .guard (.eq (.set (.id "m") (.call (.id "PyImport_ImportModule") [.str "zope.security.interfaces"])) .null) .null,
   .eval (.set (.id "ForbiddenAttribute") (.call (.id "PyObject_GetAttrString") [.id "m", .str "ForbiddenAttribute"])),
   .guard (.eq (.id "ForbiddenAttribute") .null) .null,
   .eval (.set (.id "Unauthorized") (.call (.id "PyObject_GetAttrString") [.id "m", .str "Unauthorized"])),
   .guard (.eq (.id "Unauthorized") .null) .null,
   .eval (.call (.id "Py_DECREF") [.id "m"]),
   .guard (.eq (.set (.id "m") (.call (.id "PyImport_ImportModule") [.str "zope.security.checker"])) .null) .null,
   .eval (.set (.id "CheckerPublic") (.call (.id "PyObject_GetAttrString") [.id "m", .str "CheckerPublic"])),
   .guard (.eq (.id "CheckerPublic") .null) .null,
   .eval (.call (.id "Py_DECREF") [.id "m"]),
   .guard (.eq (.set (.id "_available_by_default") (.call (.id "PyList_New") [.int 0])) .null) .null,
   .eval (.call (.id "Py_INCREF") [.id "_checkers"]),
   .eval (.call (.id "PyModule_AddObject") [.id "mod", .str "_checkers", .id "_checkers"]),
   .eval (.call (.id "Py_INCREF") [.id "NoProxy"]),
   .eval (.call (.id "PyModule_AddObject") [.id "mod", .str "NoProxy", .id "NoProxy"]),
   .eval (.call (.id "Py_INCREF") [.id "_defaultChecker"]),
   .eval (.call (.id "PyModule_AddObject") [.id "mod", .str "_defaultChecker", .id "_defaultChecker"]),
   .eval (.call (.id "Py_INCREF") [.id "_available_by_default"]),
   .eval (.call (.id "PyModule_AddObject") [.id "mod", .str "_available_by_default", .id "_available_by_default"]),
   .eval (.call (.id "Py_INCREF") [.ref (.id "CheckerType")]),
   .eval (.call (.id "PyModule_AddObject") [.id "mod", .str "Checker", .ref (.id "CheckerType")]),
   .ret (.id "mod")]

/-! ## _proxy.c -/

/-- _proxy.c:301-306 -/
def proxy_clear : List T :=
  [.eval (.call (.id "CLEAR") [.fld (.id "self") "proxy_checker"]),
   .eval (.call (.fld (.fld (.id "SecurityProxyType") "tp_base") "tp_clear") [.id "self"]),
   .ret (.int 0)]

/-- _proxy.c:309-314 -/
def proxy_dealloc : List T :=
  [.eval (.call (.id "PyObject_GC_UnTrack") [.id "self"]),
   .eval (.call (.id "proxy_clear") [.id "self"]),
   .eval (.call (.fld (.fld (.id "SecurityProxyType") "tp_base") "tp_dealloc") [.id "self"])]

/-- _proxy.c:317-322 -/
def proxy_traverse : List T :=
  [.eval (.call (.id "Py_VISIT") [.fld (.fld (.id "self") "proxy") "proxy_object"]),
   .eval (.call (.id "Py_VISIT") [.fld (.id "self") "proxy_checker"]),
   .ret (.int 0)]

/-- _proxy.c:851-953 -/
def PyInit__proxy : List T :=
  [.moduleDef "_proxy" "module_functions",
   .eval (.set (.id "m") (.call (.id "PyModule_Create") [.ref (.id "moduledef")])),
   .guard (.eq (.id "m") .null) .null,
   .guard (.lt (.call (.id "Proxy_Import") []) (.int 0)) .null,
   .guard (.eq (.set (.id "str___3pow__") (.call (.id "PyUnicode_InternFromString") [.str "__3pow__"])) .null) .null,
   .guard (.eq (.set (.id "str___bool__") (.call (.id "PyUnicode_InternFromString") [.str "__bool__"])) .null) .null,
   .guard (.eq (.set (.id "str___call__") (.call (.id "PyUnicode_InternFromString") [.str "__call__"])) .null) .null,
   .guard (.eq (.set (.id "str_check") (.call (.id "PyUnicode_InternFromString") [.str "check"])) .null) .null,
   .guard (.eq (.set (.id "str_check_getattr") (.call (.id "PyUnicode_InternFromString") [.str "check_getattr"])) .null) .null,
   .guard (.eq (.set (.id "str_check_setattr") (.call (.id "PyUnicode_InternFromString") [.str "check_setattr"])) .null) .null,
   .guard (.eq (.set (.id "str___cmp__") (.call (.id "PyUnicode_InternFromString") [.str "__cmp__"])) .null) .null,
   .guard (.eq (.set (.id "str___contains__") (.call (.id "PyUnicode_InternFromString") [.str "__contains__"])) .null) .null,
   .guard (.eq (.set (.id "str___delitem__") (.call (.id "PyUnicode_InternFromString") [.str "__delitem__"])) .null) .null,
   .guard (.eq (.set (.id "str___getitem__") (.call (.id "PyUnicode_InternFromString") [.str "__getitem__"])) .null) .null,
   .guard (.eq (.set (.id "str___hash__") (.call (.id "PyUnicode_InternFromString") [.str "__hash__"])) .null) .null,
   .guard (.eq (.set (.id "str___iter__") (.call (.id "PyUnicode_InternFromString") [.str "__iter__"])) .null) .null,
   .guard (.eq (.set (.id "str___len__") (.call (.id "PyUnicode_InternFromString") [.str "__len__"])) .null) .null,
   .guard (.eq (.set (.id "str___next__") (.call (.id "PyUnicode_InternFromString") [.str "__next__"])) .null) .null,
   .guard (.eq (.set (.id "str_op_abs") (.call (.id "PyUnicode_InternFromString") [.str "__abs__"])) .null) .null,
   .guard (.eq (.set (.id "str_op_add") (.call (.id "PyUnicode_InternFromString") [.str "__add__"])) .null) .null,
   .guard (.eq (.set (.id "str_op_and") (.call (.id "PyUnicode_InternFromString") [.str "__and__"])) .null) .null,
   .guard (.eq (.set (.id "str_op_divmod") (.call (.id "PyUnicode_InternFromString") [.str "__divmod__"])) .null) .null,
   .guard (.eq (.set (.id "str_op_float") (.call (.id "PyUnicode_InternFromString") [.str "__float__"])) .null) .null,
   .guard (.eq (.set (.id "str_op_floordiv") (.call (.id "PyUnicode_InternFromString") [.str "__floordiv__"])) .null) .null,
   .guard (.eq (.set (.id "str_op_iadd") (.call (.id "PyUnicode_InternFromString") [.str "__iadd__"])) .null) .null,
   .guard (.eq (.set (.id "str_op_iand") (.call (.id "PyUnicode_InternFromString") [.str "__iand__"])) .null) .null,
   .guard (.eq (.set (.id "str_op_ifloordiv") (.call (.id "PyUnicode_InternFromString") [.str "__ifloordiv__"])) .null) .null,
   .guard (.eq (.set (.id "str_op_ilshift") (.call (.id "PyUnicode_InternFromString") [.str "__ilshift__"])) .null) .null,
   .guard (.eq (.set (.id "str_op_imod") (.call (.id "PyUnicode_InternFromString") [.str "__imod__"])) .null) .null,
   .guard (.eq (.set (.id "str_op_imul") (.call (.id "PyUnicode_InternFromString") [.str "__imul__"])) .null) .null,
   .guard (.eq (.set (.id "str_op_int") (.call (.id "PyUnicode_InternFromString") [.str "__int__"])) .null) .null,
   .guard (.eq (.set (.id "str_op_invert") (.call (.id "PyUnicode_InternFromString") [.str "__invert__"])) .null) .null,
   .guard (.eq (.set (.id "str_op_ior") (.call (.id "PyUnicode_InternFromString") [.str "__ior__"])) .null) .null,
   .guard (.eq (.set (.id "str_op_ipow") (.call (.id "PyUnicode_InternFromString") [.str "__ipow__"])) .null) .null,
   .guard (.eq (.set (.id "str_op_irshift") (.call (.id "PyUnicode_InternFromString") [.str "__irshift__"])) .null) .null,
   .guard (.eq (.set (.id "str_op_isub") (.call (.id "PyUnicode_InternFromString") [.str "__isub__"])) .null) .null,
   .guard (.eq (.set (.id "str_op_itruediv") (.call (.id "PyUnicode_InternFromString") [.str "__itruediv__"])) .null) .null,
   .guard (.eq (.set (.id "str_op_ixor") (.call (.id "PyUnicode_InternFromString") [.str "__ixor__"])) .null) .null,
   .guard (.eq (.set (.id "str_op_lshift") (.call (.id "PyUnicode_InternFromString") [.str "__lshift__"])) .null) .null,
   .guard (.eq (.set (.id "str_op_mod") (.call (.id "PyUnicode_InternFromString") [.str "__mod__"])) .null) .null,
   .guard (.eq (.set (.id "str_op_mul") (.call (.id "PyUnicode_InternFromString") [.str "__mul__"])) .null) .null,
   .guard (.eq (.set (.id "str_op_neg") (.call (.id "PyUnicode_InternFromString") [.str "__neg__"])) .null) .null,
   .guard (.eq (.set (.id "str_op_or") (.call (.id "PyUnicode_InternFromString") [.str "__or__"])) .null) .null,
   .guard (.eq (.set (.id "str_op_pos") (.call (.id "PyUnicode_InternFromString") [.str "__pos__"])) .null) .null,
   .guard (.eq (.set (.id "str_op_radd") (.call (.id "PyUnicode_InternFromString") [.str "__radd__"])) .null) .null,
   .guard (.eq (.set (.id "str_op_rand") (.call (.id "PyUnicode_InternFromString") [.str "__rand__"])) .null) .null,
   .guard (.eq (.set (.id "str_op_rdivmod") (.call (.id "PyUnicode_InternFromString") [.str "__rdivmod__"])) .null) .null,
   .guard (.eq (.set (.id "str_op_rfloordiv") (.call (.id "PyUnicode_InternFromString") [.str "__rfloordiv__"])) .null) .null,
   .guard (.eq (.set (.id "str_op_rlshift") (.call (.id "PyUnicode_InternFromString") [.str "__rlshift__"])) .null) .null,
   .guard (.eq (.set (.id "str_op_rmod") (.call (.id "PyUnicode_InternFromString") [.str "__rmod__"])) .null) .null,
   .guard (.eq (.set (.id "str_op_rmul") (.call (.id "PyUnicode_InternFromString") [.str "__rmul__"])) .null) .null,
   .guard (.eq (.set (.id "str_op_ror") (.call (.id "PyUnicode_InternFromString") [.str "__ror__"])) .null) .null,
   .guard (.eq (.set (.id "str_op_rrshift") (.call (.id "PyUnicode_InternFromString") [.str "__rrshift__"])) .null) .null,
   .guard (.eq (.set (.id "str_op_rshift") (.call (.id "PyUnicode_InternFromString") [.str "__rshift__"])) .null) .null,
   .guard (.eq (.set (.id "str_op_rsub") (.call (.id "PyUnicode_InternFromString") [.str "__rsub__"])) .null) .null,
   .guard (.eq (.set (.id "str_op_rtruediv") (.call (.id "PyUnicode_InternFromString") [.str "__rtruediv__"])) .null) .null,
   .guard (.eq (.set (.id "str_op_rxor") (.call (.id "PyUnicode_InternFromString") [.str "__rxor__"])) .null) .null,
   .guard (.eq (.set (.id "str_op_sub") (.call (.id "PyUnicode_InternFromString") [.str "__sub__"])) .null) .null,
   .guard (.eq (.set (.id "str_op_truediv") (.call (.id "PyUnicode_InternFromString") [.str "__truediv__"])) .null) .null,
   .guard (.eq (.set (.id "str_op_xor") (.call (.id "PyUnicode_InternFromString") [.str "__xor__"])) .null) .null,
   .guard (.eq (.set (.id "str___pow__") (.call (.id "PyUnicode_InternFromString") [.str "__pow__"])) .null) .null,
   .guard (.eq (.set (.id "str_proxy") (.call (.id "PyUnicode_InternFromString") [.str "proxy"])) .null) .null,
   .guard (.eq (.set (.id "str___repr__") (.call (.id "PyUnicode_InternFromString") [.str "__repr__"])) .null) .null,
   .guard (.eq (.set (.id "str___rpow__") (.call (.id "PyUnicode_InternFromString") [.str "__rpow__"])) .null) .null,
   .guard (.eq (.set (.id "str___setitem__") (.call (.id "PyUnicode_InternFromString") [.str "__setitem__"])) .null) .null,
   .guard (.eq (.set (.id "str___str__") (.call (.id "PyUnicode_InternFromString") [.str "__str__"])) .null) .null,
   .eval (.set (.id "__class__str") (.call (.id "PyUnicode_FromString") [.str "__class__"])),
   .guard (.not (.id "__class__str")) .null,
   .eval (.set (.id "__name__str") (.call (.id "PyUnicode_FromString") [.str "__name__"])),
   .guard (.not (.id "__name__str")) .null,
   .eval (.set (.id "__module__str") (.call (.id "PyUnicode_FromString") [.str "__module__"])),
   .guard (.not (.id "__module__str")) .null,
   .eval (.set (.fld (.id "SecurityProxyType") "tp_alloc") (.id "PyType_GenericAlloc")),
   .eval (.set (.fld (.id "SecurityProxyType") "tp_free") (.id "PyObject_GC_Del")),
   .eval (.set (.fld (.id "SecurityProxyType") "tp_base") (.ref (.id "ProxyType"))),
   .guard (.lt (.call (.id "PyType_Ready") [.ref (.id "SecurityProxyType")]) (.int 0)) .null,
   .eval (.call (.id "Py_INCREF") [.ref (.id "SecurityProxyType")]),
   .eval (.call (.id "PyModule_AddObject") [.id "m", .str "_Proxy", .ref (.id "SecurityProxyType")]),
   .ret (.id "m")]

end Src
end ZS.CI
