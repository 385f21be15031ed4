import Verif.Model.CSyntax

/-!
# The C functions as syntax trees

Written by tools/csource.py from the text of _zope_security_checker.c and _proxy.c; do not edit.
-/

namespace ZS.CS
open ZS
namespace Src

/-! ## _zope_security_checker.c -/

/-- _zope_security_checker.c:62-78 -/
def Checker_permission_id : CFunc where
  name := "Checker_permission_id"
  params := ["self", "name"]
  body :=
    .ite (.field (.var "self") .getperms)
      (.set "result" (.call (.api .PyDict_GetItem) [(.field (.var "self") .getperms), (.var "name")]) <|
        .ite (.eq (.var "result") .null)
          (.set "result" (.glob "Py_None") <|
            .done)
          .done <|
        .done)
      (.set "result" (.glob "Py_None") <|
        .done) <|
    .eval (.call (.api .Py_INCREF) [(.var "result")]) <|
    .ret (.var "result")

/-- _zope_security_checker.c:82-98 -/
def Checker_setattr_permission_id : CFunc where
  name := "Checker_setattr_permission_id"
  params := ["self", "name"]
  body :=
    .ite (.field (.var "self") .setperms)
      (.set "result" (.call (.api .PyDict_GetItem) [(.field (.var "self") .setperms), (.var "name")]) <|
        .ite (.eq (.var "result") .null)
          (.set "result" (.glob "Py_None") <|
            .done)
          .done <|
        .done)
      (.set "result" (.glob "Py_None") <|
        .done) <|
    .eval (.call (.api .Py_INCREF) [(.var "result")]) <|
    .ret (.var "result")

/-- _zope_security_checker.c:101-131 -/
def checkPermission : CFunc where
  name := "checkPermission"
  params := ["permission", "object", "name"]
  body :=
    .set "interaction" (.call (.api .PyObject_GetAttr) [(.glob "thread_local"), (.glob "str_interaction")]) <|
    .ite (.eq (.var "interaction") .null)
      (.ret (.int (-1)))
      .done <|
    .set "r" (.call (.api .PyObject_CallMethodObjArgs) [(.var "interaction"), (.glob "str_checkPermission"), (.var "permission"), (.var "object"), .null]) <|
    .eval (.call (.api .Py_DECREF) [(.var "interaction")]) <|
    .ite (.eq (.var "r") .null)
      (.ret (.int (-1)))
      .done <|
    .set "i" (.call (.api .PyObject_IsTrue) [(.var "r")]) <|
    .eval (.call (.api .Py_DECREF) [(.var "r")]) <|
    .ite (.lt (.var "i") (.int 0))
      (.ret (.int (-1)))
      .done <|
    .ite (.var "i")
      (.ret (.int 0))
      .done <|
    .set "r" (.call (.api .Py_BuildValue) [(.str "OOO"), (.var "object"), (.var "name"), (.var "permission")]) <|
    .ite (.eq (.var "r") .null)
      (.ret (.int (-1)))
      .done <|
    .eval (.call (.api .PyErr_SetObject) [(.glob "Unauthorized"), (.var "r")]) <|
    .eval (.call (.api .Py_DECREF) [(.var "r")]) <|
    .ret (.int (-1))

/-- _zope_security_checker.c:140-198 -/
def Checker_check_int : CFunc where
  name := "Checker_check_int"
  params := ["self", "object", "name"]
  body :=
    .set "permission" .null <|
    .ite (.field (.var "self") .getperms)
      (.set "permission" (.call (.api .PyDict_GetItem) [(.field (.var "self") .getperms), (.var "name")]) <|
        .done)
      .done <|
    .ite (.ne (.var "permission") .null)
      (.ite (.eq (.var "permission") (.glob "CheckerPublic"))
          (.ret (.int 0))
          .done <|
        .ite (.lt (.call (.fn "checkPermission") [(.var "permission"), (.var "object"), (.var "name")]) (.int 0))
          (.ret (.int (-1)))
          .done <|
        .ret (.int 0))
      .done <|
    .set "operator" (.and (.and (.call (.api .PyUnicode_Check) [(.var "name")]) (.eq (.index (.call (.api .PyBytes_AS_STRING) [(.call (.api .PyUnicode_AsUTF8String) [(.var "name")])]) 0) (.chr '_'))) (.eq (.index (.call (.api .PyBytes_AS_STRING) [(.call (.api .PyUnicode_AsUTF8String) [(.var "name")])]) 1) (.chr '_'))) <|
    .ite (.var "operator")
      (.set "ic" (.call (.api .PySequence_Contains) [(.glob "_available_by_default"), (.var "name")]) <|
        .ite (.lt (.var "ic") (.int 0))
          (.ret (.int (-1)))
          .done <|
        .ite (.var "ic")
          (.ret (.int 0))
          .done <|
        .ite (.and (.eq (.call (.api .strcmp) [(.str "__iter__"), (.call (.api .PyBytes_AS_STRING) [(.call (.api .PyUnicode_AsUTF8String) [(.var "name")])])]) (.int 0)) (.not (.call (.api .PyObject_HasAttr) [(.var "object"), (.var "name")])))
          (.ret (.int 0))
          .done <|
        .done)
      .done <|
    .set "args" (.call (.api .Py_BuildValue) [(.str "OO"), (.var "name"), (.var "object")]) <|
    .ite (.ne (.var "args") .null)
      (.eval (.call (.api .PyErr_SetObject) [(.glob "ForbiddenAttribute"), (.var "args")]) <|
        .eval (.call (.api .Py_DECREF) [(.var "args")]) <|
        .done)
      .done <|
    .ret (.int (-1))

/-- _zope_security_checker.c:204-216 -/
def Checker_check : CFunc where
  name := "Checker_check"
  params := ["self", "args"]
  body :=
    .parse (.var "args") 2 ["object", "name"]
      (.ret .null) <|
    .ite (.lt (.call (.fn "Checker_check_int") [(.var "self"), (.var "object"), (.var "name")]) (.int 0))
      (.ret .null)
      .done <|
    .eval (.call (.api .Py_INCREF) [(.glob "Py_None")]) <|
    .ret (.glob "Py_None")

/-- _zope_security_checker.c:221-254 -/
def Checker_check_setattr : CFunc where
  name := "Checker_check_setattr"
  params := ["self", "args"]
  body :=
    .set "permission" .null <|
    .parse (.var "args") 2 ["object", "name"]
      (.ret .null) <|
    .ite (.field (.var "self") .setperms)
      (.set "permission" (.call (.api .PyDict_GetItem) [(.field (.var "self") .setperms), (.var "name")]) <|
        .done)
      .done <|
    .ite (.ne (.var "permission") .null)
      (.ite (.and (.ne (.var "permission") (.glob "CheckerPublic")) (.lt (.call (.fn "checkPermission") [(.var "permission"), (.var "object"), (.var "name")]) (.int 0)))
          (.ret .null)
          .done <|
        .eval (.call (.api .Py_INCREF) [(.glob "Py_None")]) <|
        .ret (.glob "Py_None"))
      .done <|
    .set "args" (.call (.api .Py_BuildValue) [(.str "OO"), (.var "name"), (.var "object")]) <|
    .ite (.ne (.var "args") .null)
      (.eval (.call (.api .PyErr_SetObject) [(.glob "ForbiddenAttribute"), (.var "args")]) <|
        .eval (.call (.api .Py_DECREF) [(.var "args")]) <|
        .done)
      .done <|
    .ret .null

/-- _zope_security_checker.c:262-313 -/
def Checker_proxy : CFunc where
  name := "Checker_proxy"
  params := ["self", "value"]
  body :=
    .ite (.eq (.call (.api .Py_TYPE) [(.var "value")]) (.glob "Proxy"))
      (.eval (.call (.api .Py_INCREF) [(.var "value")]) <|
        .ret (.var "value"))
      .done <|
    .set "checker" (.call (.api .PyObject_GetAttr) [(.var "value"), (.glob "str___Security_checker__")]) <|
    .ite (.eq (.var "checker") .null)
      (.eval (.call (.api .PyErr_Clear) []) <|
        .set "checker" (.call (.fn "selectChecker") [.null, (.var "value")]) <|
        .ite (.eq (.var "checker") .null)
          (.ret .null)
          .done <|
        .ite (.eq (.var "checker") (.glob "Py_None"))
          (.eval (.call (.api .Py_DECREF) [(.var "checker")]) <|
            .eval (.call (.api .Py_INCREF) [(.var "value")]) <|
            .ret (.var "value"))
          .done <|
        .done)
      (.ite (.eq (.var "checker") (.glob "Py_None"))
          (.set "errv" (.call (.api .Py_BuildValue) [(.str "sO"), (.str "Invalid value, None. for security checker"), (.var "value")]) <|
            .ite (.ne (.var "errv") .null)
              (.eval (.call (.api .PyErr_SetObject) [(.glob "PyExc_ValueError"), (.var "errv")]) <|
                .eval (.call (.api .Py_DECREF) [(.var "errv")]) <|
                .done)
              .done <|
            .ret .null)
          .done <|
        .done) <|
    .set "r" (.call (.api .PyObject_CallFunctionObjArgs) [(.glob "Proxy"), (.var "value"), (.var "checker"), .null]) <|
    .eval (.call (.api .Py_DECREF) [(.var "checker")]) <|
    .ret (.var "r")

/-- _zope_security_checker.c:338-343 -/
def Checker_clear : CFunc where
  name := "Checker_clear"
  params := ["self"]
  body :=
    .clear (.var "self") .getperms <|
    .clear (.var "self") .setperms <|
    .ret (.int 0)

/-- _zope_security_checker.c:365-381 -/
def Checker_init : CFunc where
  name := "Checker_init"
  params := ["self", "args", "kwds"]
  body :=
    .set "setperms" .null <|
    .parse (.var "args") 1 ["getperms", "setperms"]
      (.ret (.int (-1))) <|
    .eval (.call (.api .Py_INCREF) [(.var "getperms")]) <|
    .store (.var "self") .getperms (.var "getperms") <|
    .eval (.call (.api .Py_XINCREF) [(.var "setperms")]) <|
    .store (.var "self") .setperms (.var "setperms") <|
    .ret (.int 0)

/-- _zope_security_checker.c:384-395 -/
def Checker_get_get_permissions : CFunc where
  name := "Checker_get_get_permissions"
  params := ["self", "closure"]
  body :=
    .ite (.eq (.field (.var "self") .getperms) .null)
      (.store (.var "self") .getperms (.call (.api .PyDict_New) []) <|
        .ite (.eq (.field (.var "self") .getperms) .null)
          (.ret .null)
          .done <|
        .done)
      .done <|
    .eval (.call (.api .Py_INCREF) [(.field (.var "self") .getperms)]) <|
    .ret (.field (.var "self") .getperms)

/-- _zope_security_checker.c:398-409 -/
def Checker_get_set_permissions : CFunc where
  name := "Checker_get_set_permissions"
  params := ["self", "closure"]
  body :=
    .ite (.eq (.field (.var "self") .setperms) .null)
      (.store (.var "self") .setperms (.call (.api .PyDict_New) []) <|
        .ite (.eq (.field (.var "self") .setperms) .null)
          (.ret .null)
          .done <|
        .done)
      .done <|
    .eval (.call (.api .Py_INCREF) [(.field (.var "self") .setperms)]) <|
    .ret (.field (.var "self") .setperms)

/-- _zope_security_checker.c:501-555 -/
def selectChecker : CFunc where
  name := "selectChecker"
  params := ["ignored", "object"]
  body :=
    .set "checker" (.call (.api .PyDict_GetItem) [(.glob "_checkers"), (.call (.api .Py_TYPE) [(.var "object")])]) <|
    .ite (.eq (.var "checker") .null)
      (.set "checker" (.glob "_defaultChecker") <|
        .done)
      .done <|
    .ite (.eq (.var "checker") (.glob "NoProxy"))
      (.eval (.call (.api .Py_INCREF) [(.glob "Py_None")]) <|
        .ret (.glob "Py_None"))
      .done <|
    .ite (.and (.eq (.var "checker") (.glob "_defaultChecker")) (.call (.api .PyObject_IsInstance) [(.var "object"), (.glob "PyExc_Exception")]))
      (.eval (.call (.api .Py_INCREF) [(.glob "Py_None")]) <|
        .ret (.glob "Py_None"))
      .done <|
    .eval (.call (.api .Py_INCREF) [(.var "checker")]) <|
    .loop (.not (.call (.api .PyObject_TypeCheck) [(.var "checker"), (.addr "CheckerType")]))
      (.set "newchecker" (.call (.api .PyObject_CallFunctionObjArgs) [(.var "checker"), (.var "object"), .null]) <|
        .eval (.call (.api .Py_DECREF) [(.var "checker")]) <|
        .ite (.eq (.var "newchecker") .null)
          (.ret .null)
          .done <|
        .set "checker" (.var "newchecker") <|
        .ite (.or (.eq (.var "checker") (.glob "NoProxy")) (.eq (.var "checker") (.glob "Py_None")))
          (.eval (.call (.api .Py_DECREF) [(.var "checker")]) <|
            .eval (.call (.api .Py_INCREF) [(.glob "Py_None")]) <|
            .ret (.glob "Py_None"))
          .done <|
        .done) <|
    .ret (.var "checker")

/-! ## _proxy.c -/

/-- _proxy.c:129-153 -/
def check : CFunc where
  name := "check"
  params := ["self", "meth", "name"]
  body :=
    .ite (.and (.and (.ne (.field (.field (.field (.var "self") .proxy_checker) .ob_type) .tp_as_mapping) .null) (.ne (.field (.field (.field (.field (.var "self") .proxy_checker) .ob_type) .tp_as_mapping) .mp_ass_subscript) .null)) (.ne (.var "meth") (.glob "str_check_setattr")))
      (.ret (.call (.field (.field (.field (.field (.var "self") .proxy_checker) .ob_type) .tp_as_mapping) .mp_ass_subscript) [(.field (.var "self") .proxy_checker), (.field (.var "self") .proxy_object), (.var "name")]))
      .done <|
    .set "r" (.call (.api .PyObject_CallMethodObjArgs) [(.field (.var "self") .proxy_checker), (.var "meth"), (.field (.var "self") .proxy_object), (.var "name"), .null]) <|
    .ite (.eq (.var "r") .null)
      (.ret (.int (-1)))
      .done <|
    .eval (.call (.api .Py_DECREF) [(.var "r")]) <|
    .ret (.int 0)

/-- _proxy.c:178-187 -/
def check1 : CFunc where
  name := "check1"
  params := ["self", "opname", "operation"]
  body :=
    .set "result" .null <|
    .ite (.ge (.call (.fn "check") [(.var "self"), (.glob "str_check"), (.var "opname")]) (.int 0))
      (.set "result" (.call (.var "operation") [(.field (.var "self") .proxy_object)]) <|
        .ite (.ne (.var "result") .null)
          (.ite (.and (.ne (.field (.field (.field (.var "self") .proxy_checker) .ob_type) .tp_as_mapping) .null) (.ne (.field (.field (.field (.field (.var "self") .proxy_checker) .ob_type) .tp_as_mapping) .mp_subscript) .null))
              (.set "tmp" (.call (.field (.field (.field (.field (.var "self") .proxy_checker) .ob_type) .tp_as_mapping) .mp_subscript) [(.field (.var "self") .proxy_checker), (.var "result")]) <|
                .done)
              (.set "tmp" (.call (.api .PyObject_CallMethodObjArgs) [(.field (.var "self") .proxy_checker), (.glob "str_proxy"), (.var "result"), .null]) <|
                .done) <|
            .eval (.call (.api .Py_DECREF) [(.var "result")]) <|
            .set "result" (.var "tmp") <|
            .done)
          .done <|
        .done)
      .done <|
    .ret (.var "result")

/-- _proxy.c:190-221 -/
def check2 : CFunc where
  name := "check2"
  params := ["self", "other", "opname", "ropname", "operation"]
  body :=
    .set "result" .null <|
    .ite (.call (.api .PyObject_TypeCheck) [(.var "self"), (.addr "SecurityProxyType")])
      (.ite (.ge (.call (.fn "check") [(.var "self"), (.glob "str_check"), (.var "opname")]) (.int 0))
          (.set "result" (.call (.var "operation") [(.field (.var "self") .proxy_object), (.var "other")]) <|
            .ite (.ne (.var "result") .null)
              (.ite (.and (.ne (.field (.field (.field (.var "self") .proxy_checker) .ob_type) .tp_as_mapping) .null) (.ne (.field (.field (.field (.field (.var "self") .proxy_checker) .ob_type) .tp_as_mapping) .mp_subscript) .null))
                  (.set "tmp" (.call (.field (.field (.field (.field (.var "self") .proxy_checker) .ob_type) .tp_as_mapping) .mp_subscript) [(.field (.var "self") .proxy_checker), (.var "result")]) <|
                    .done)
                  (.set "tmp" (.call (.api .PyObject_CallMethodObjArgs) [(.field (.var "self") .proxy_checker), (.glob "str_proxy"), (.var "result"), .null]) <|
                    .done) <|
                .eval (.call (.api .Py_DECREF) [(.var "result")]) <|
                .set "result" (.var "tmp") <|
                .done)
              .done <|
            .done)
          .done <|
        .done)
      (.ite (.call (.api .PyObject_TypeCheck) [(.var "other"), (.addr "SecurityProxyType")])
          (.ite (.ge (.call (.fn "check") [(.var "other"), (.glob "str_check"), (.var "ropname")]) (.int 0))
              (.set "result" (.call (.var "operation") [(.var "self"), (.field (.var "other") .proxy_object)]) <|
                .ite (.ne (.var "result") .null)
                  (.ite (.and (.ne (.field (.field (.field (.var "other") .proxy_checker) .ob_type) .tp_as_mapping) .null) (.ne (.field (.field (.field (.field (.var "other") .proxy_checker) .ob_type) .tp_as_mapping) .mp_subscript) .null))
                      (.set "tmp" (.call (.field (.field (.field (.field (.var "other") .proxy_checker) .ob_type) .tp_as_mapping) .mp_subscript) [(.field (.var "other") .proxy_checker), (.var "result")]) <|
                        .done)
                      (.set "tmp" (.call (.api .PyObject_CallMethodObjArgs) [(.field (.var "other") .proxy_checker), (.glob "str_proxy"), (.var "result"), .null]) <|
                        .done) <|
                    .eval (.call (.api .Py_DECREF) [(.var "result")]) <|
                    .set "result" (.var "tmp") <|
                    .done)
                  .done <|
                .done)
              .done <|
            .done)
          (.eval (.call (.api .Py_INCREF) [(.glob "Py_NotImplemented")]) <|
            .ret (.glob "Py_NotImplemented")) <|
        .done) <|
    .ret (.var "result")

/-- _proxy.c:224-244 -/
def check2i : CFunc where
  name := "check2i"
  params := ["self", "other", "opname", "operation"]
  body :=
    .set "result" .null <|
    .ite (.ge (.call (.fn "check") [(.var "self"), (.glob "str_check"), (.var "opname")]) (.int 0))
      (.set "result" (.call (.var "operation") [(.field (.var "self") .proxy_object), (.var "other")]) <|
        .ite (.eq (.var "result") (.field (.var "self") .proxy_object))
          (.eval (.call (.api .Py_DECREF) [(.var "result")]) <|
            .eval (.call (.api .Py_INCREF) [(.var "self")]) <|
            .set "result" (.var "self") <|
            .done)
          (.ite (.ne (.var "result") .null)
              (.ite (.and (.ne (.field (.field (.field (.var "self") .proxy_checker) .ob_type) .tp_as_mapping) .null) (.ne (.field (.field (.field (.field (.var "self") .proxy_checker) .ob_type) .tp_as_mapping) .mp_subscript) .null))
                  (.set "tmp" (.call (.field (.field (.field (.field (.var "self") .proxy_checker) .ob_type) .tp_as_mapping) .mp_subscript) [(.field (.var "self") .proxy_checker), (.var "result")]) <|
                    .done)
                  (.set "tmp" (.call (.api .PyObject_CallMethodObjArgs) [(.field (.var "self") .proxy_checker), (.glob "str_proxy"), (.var "result"), .null]) <|
                    .done) <|
                .eval (.call (.api .Py_DECREF) [(.var "result")]) <|
                .set "result" (.var "tmp") <|
                .done)
              .done <|
            .done) <|
        .done)
      .done <|
    .ret (.var "result")

/-- _proxy.c:264-290 -/
def proxy_new : CFunc where
  name := "proxy_new"
  params := ["type", "args", "kwds"]
  body :=
    .parse (.var "args") 2 ["object", "checker"]
      (.ret .null) <|
    .ite (.eq (.var "checker") (.glob "Py_None"))
      (.eval (.call (.api .PyErr_SetString) [(.glob "PyExc_ValueError"), (.str "None passed as proxy checker")]) <|
        .ret .null)
      .done <|
    .set "self" (.call (.field (.var "type") .tp_alloc) [(.var "type"), (.int 0)]) <|
    .ite (.eq (.var "self") .null)
      (.ret .null)
      .done <|
    .eval (.call (.api .Py_INCREF) [(.var "object")]) <|
    .eval (.call (.api .Py_INCREF) [(.var "checker")]) <|
    .store (.var "self") .proxy_object (.var "object") <|
    .store (.var "self") .proxy_checker (.var "checker") <|
    .ret (.var "self")

/-- _proxy.c:295-298 -/
def proxy_init : CFunc where
  name := "proxy_init"
  params := ["self", "args", "kw"]
  body :=
    .ret (.int 0)

/-- _proxy.c:301-306 -/
def proxy_clear : CFunc where
  name := "proxy_clear"
  params := ["self"]
  body :=
    .clear (.var "self") .proxy_checker <|
    .eval (.call (.field (.field (.glob "SecurityProxyType") .tp_base) .tp_clear) [(.var "self")]) <|
    .ret (.int 0)

/-- _proxy.c:325-334 -/
def proxy_richcompare : CFunc where
  name := "proxy_richcompare"
  params := ["self", "other", "op"]
  body :=
    .set "result" .null <|
    .set "result" (.call (.api .PyObject_RichCompare) [(.field (.var "self") .proxy_object), (.var "other"), (.var "op")]) <|
    .ite (.or (.eq (.var "result") (.glob "Py_True")) (.eq (.var "result") (.glob "Py_False")))
      (.ret (.var "result"))
      .done <|
    .ite (.ne (.var "result") .null)
      (.ite (.and (.ne (.field (.field (.field (.var "self") .proxy_checker) .ob_type) .tp_as_mapping) .null) (.ne (.field (.field (.field (.field (.var "self") .proxy_checker) .ob_type) .tp_as_mapping) .mp_subscript) .null))
          (.set "tmp" (.call (.field (.field (.field (.field (.var "self") .proxy_checker) .ob_type) .tp_as_mapping) .mp_subscript) [(.field (.var "self") .proxy_checker), (.var "result")]) <|
            .done)
          (.set "tmp" (.call (.api .PyObject_CallMethodObjArgs) [(.field (.var "self") .proxy_checker), (.glob "str_proxy"), (.var "result"), .null]) <|
            .done) <|
        .eval (.call (.api .Py_DECREF) [(.var "result")]) <|
        .set "result" (.var "tmp") <|
        .done)
      .done <|
    .ret (.var "result")

/-- _proxy.c:337-347 -/
def proxy_iter : CFunc where
  name := "proxy_iter"
  params := ["self"]
  body :=
    .set "result" .null <|
    .ite (.ge (.call (.fn "check") [(.var "self"), (.glob "str_check"), (.glob "str___iter__")]) (.int 0))
      (.set "result" (.call (.api .PyObject_GetIter) [(.field (.var "self") .proxy_object)]) <|
        .ite (.ne (.var "result") .null)
          (.ite (.and (.ne (.field (.field (.field (.var "self") .proxy_checker) .ob_type) .tp_as_mapping) .null) (.ne (.field (.field (.field (.field (.var "self") .proxy_checker) .ob_type) .tp_as_mapping) .mp_subscript) .null))
              (.set "tmp" (.call (.field (.field (.field (.field (.var "self") .proxy_checker) .ob_type) .tp_as_mapping) .mp_subscript) [(.field (.var "self") .proxy_checker), (.var "result")]) <|
                .done)
              (.set "tmp" (.call (.api .PyObject_CallMethodObjArgs) [(.field (.var "self") .proxy_checker), (.glob "str_proxy"), (.var "result"), .null]) <|
                .done) <|
            .eval (.call (.api .Py_DECREF) [(.var "result")]) <|
            .set "result" (.var "tmp") <|
            .done)
          .done <|
        .done)
      .done <|
    .ret (.var "result")

/-- _proxy.c:350-360 -/
def proxy_iternext : CFunc where
  name := "proxy_iternext"
  params := ["self"]
  body :=
    .set "result" .null <|
    .ite (.ge (.call (.fn "check") [(.var "self"), (.glob "str_check_getattr"), (.glob "str___next__")]) (.int 0))
      (.set "result" (.call (.api .PyIter_Next) [(.field (.var "self") .proxy_object)]) <|
        .ite (.ne (.var "result") .null)
          (.ite (.and (.ne (.field (.field (.field (.var "self") .proxy_checker) .ob_type) .tp_as_mapping) .null) (.ne (.field (.field (.field (.field (.var "self") .proxy_checker) .ob_type) .tp_as_mapping) .mp_subscript) .null))
              (.set "tmp" (.call (.field (.field (.field (.field (.var "self") .proxy_checker) .ob_type) .tp_as_mapping) .mp_subscript) [(.field (.var "self") .proxy_checker), (.var "result")]) <|
                .done)
              (.set "tmp" (.call (.api .PyObject_CallMethodObjArgs) [(.field (.var "self") .proxy_checker), (.glob "str_proxy"), (.var "result"), .null]) <|
                .done) <|
            .eval (.call (.api .Py_DECREF) [(.var "result")]) <|
            .set "result" (.var "tmp") <|
            .done)
          .done <|
        .done)
      .done <|
    .ret (.var "result")

/-- _proxy.c:363-373 -/
def proxy_getattro : CFunc where
  name := "proxy_getattro"
  params := ["self", "name"]
  body :=
    .set "result" .null <|
    .ite (.ge (.call (.fn "check") [(.var "self"), (.glob "str_check_getattr"), (.var "name")]) (.int 0))
      (.set "result" (.call (.api .PyObject_GetAttr) [(.field (.var "self") .proxy_object), (.var "name")]) <|
        .ite (.ne (.var "result") .null)
          (.ite (.and (.ne (.field (.field (.field (.var "self") .proxy_checker) .ob_type) .tp_as_mapping) .null) (.ne (.field (.field (.field (.field (.var "self") .proxy_checker) .ob_type) .tp_as_mapping) .mp_subscript) .null))
              (.set "tmp" (.call (.field (.field (.field (.field (.var "self") .proxy_checker) .ob_type) .tp_as_mapping) .mp_subscript) [(.field (.var "self") .proxy_checker), (.var "result")]) <|
                .done)
              (.set "tmp" (.call (.api .PyObject_CallMethodObjArgs) [(.field (.var "self") .proxy_checker), (.glob "str_proxy"), (.var "result"), .null]) <|
                .done) <|
            .eval (.call (.api .Py_DECREF) [(.var "result")]) <|
            .set "result" (.var "tmp") <|
            .done)
          .done <|
        .done)
      .done <|
    .ret (.var "result")

/-- _proxy.c:376-381 -/
def proxy_setattro : CFunc where
  name := "proxy_setattro"
  params := ["self", "name", "value"]
  body :=
    .ite (.ge (.call (.fn "check") [(.var "self"), (.glob "str_check_setattr"), (.var "name")]) (.int 0))
      (.ret (.call (.api .PyObject_SetAttr) [(.field (.var "self") .proxy_object), (.var "name"), (.var "value")]))
      .done <|
    .ret (.int (-1))

/-- _proxy.c:384-420 -/
def default_repr : CFunc where
  name := "default_repr"
  params := ["object"]
  body :=
    .set "name" .null <|
    .set "module" .null <|
    .set "result" .null <|
    .set "klass" (.call (.api .PyObject_GetAttr) [(.var "object"), (.glob "__class__str")]) <|
    .ite (.eq (.var "klass") .null)
      (.ret .null)
      .done <|
    .set "name" (.call (.api .PyObject_GetAttr) [(.var "klass"), (.glob "__name__str")]) <|
    .ite (.eq (.var "name") .null)
      (.goto "err")
      .done <|
    .set "sname" (.call (.api .PyBytes_AS_STRING) [(.call (.api .PyUnicode_AsUTF8String) [(.var "name")])]) <|
    .ite (.eq (.var "sname") .null)
      (.goto "err")
      .done <|
    .set "module" (.call (.api .PyObject_GetAttr) [(.var "klass"), (.glob "__module__str")]) <|
    .ite (.ne (.var "module") .null)
      (.set "smodule" (.call (.api .PyBytes_AS_STRING) [(.call (.api .PyUnicode_AsUTF8String) [(.var "module")])]) <|
        .ite (.eq (.var "smodule") .null)
          (.goto "err")
          .done <|
        .set "result" (.call (.api .PyUnicode_FromFormat) [(.str "<security proxied %s.%s instance at %p>"), (.var "smodule"), (.var "sname"), (.var "object")]) <|
        .done)
      (.eval (.call (.api .PyErr_Clear) []) <|
        .set "result" (.call (.api .PyUnicode_FromFormat) [(.str "<security proxied %s instance at %p>"), (.var "sname"), (.var "object")]) <|
        .done) <|
    .label "err" <|
    .eval (.call (.api .Py_DECREF) [(.var "klass")]) <|
    .eval (.call (.api .Py_XDECREF) [(.var "name")]) <|
    .eval (.call (.api .Py_XDECREF) [(.var "module")]) <|
    .ret (.var "result")

/-- _proxy.c:423-437 -/
def proxy_str : CFunc where
  name := "proxy_str"
  params := ["self"]
  body :=
    .set "result" .null <|
    .ite (.ge (.call (.fn "check") [(.var "self"), (.glob "str_check"), (.glob "str___str__")]) (.int 0))
      (.set "result" (.call (.api .PyObject_Str) [(.field (.var "self") .proxy_object)]) <|
        .done)
      (.eval (.call (.api .PyErr_Clear) []) <|
        .set "result" (.call (.fn "default_repr") [(.field (.var "self") .proxy_object)]) <|
        .done) <|
    .ret (.var "result")

/-- _proxy.c:440-452 -/
def proxy_repr : CFunc where
  name := "proxy_repr"
  params := ["self"]
  body :=
    .set "result" .null <|
    .ite (.ge (.call (.fn "check") [(.var "self"), (.glob "str_check"), (.glob "str___repr__")]) (.int 0))
      (.set "result" (.call (.api .PyObject_Repr) [(.field (.var "self") .proxy_object)]) <|
        .done)
      (.eval (.call (.api .PyErr_Clear) []) <|
        .set "result" (.call (.fn "default_repr") [(.field (.var "self") .proxy_object)]) <|
        .done) <|
    .ret (.var "result")

/-- _proxy.c:455-458 -/
def proxy_hash : CFunc where
  name := "proxy_hash"
  params := ["self"]
  body :=
    .ret (.call (.api .PyObject_Hash) [(.field (.var "self") .proxy_object)])

/-- _proxy.c:461-471 -/
def proxy_call : CFunc where
  name := "proxy_call"
  params := ["self", "args", "kwds"]
  body :=
    .set "result" .null <|
    .ite (.ge (.call (.fn "check") [(.var "self"), (.glob "str_check"), (.glob "str___call__")]) (.int 0))
      (.set "result" (.call (.api .PyObject_Call) [(.field (.var "self") .proxy_object), (.var "args"), (.var "kwds")]) <|
        .ite (.ne (.var "result") .null)
          (.ite (.and (.ne (.field (.field (.field (.var "self") .proxy_checker) .ob_type) .tp_as_mapping) .null) (.ne (.field (.field (.field (.field (.var "self") .proxy_checker) .ob_type) .tp_as_mapping) .mp_subscript) .null))
              (.set "tmp" (.call (.field (.field (.field (.field (.var "self") .proxy_checker) .ob_type) .tp_as_mapping) .mp_subscript) [(.field (.var "self") .proxy_checker), (.var "result")]) <|
                .done)
              (.set "tmp" (.call (.api .PyObject_CallMethodObjArgs) [(.field (.var "self") .proxy_checker), (.glob "str_proxy"), (.var "result"), .null]) <|
                .done) <|
            .eval (.call (.api .Py_DECREF) [(.var "result")]) <|
            .set "result" (.var "tmp") <|
            .done)
          .done <|
        .done)
      .done <|
    .ret (.var "result")

/-- _proxy.c:490-490 -/
def call_int : CFunc where
  name := "call_int"
  params := ["self"]
  body :=
    .set "nb" (.field (.field (.var "self") .ob_type) .tp_as_number) <|
    .ite (.or (.eq (.var "nb") .null) (.eq (.field (.var "nb") .nb_int) .null))
      (.eval (.call (.api .PyErr_SetString) [(.glob "PyExc_TypeError"), (.str "object can't be converted to int")]) <|
        .ret .null)
      .done <|
    .ret (.call (.field (.var "nb") .nb_int) [(.var "self")])

/-- _proxy.c:491-491 -/
def call_float : CFunc where
  name := "call_float"
  params := ["self"]
  body :=
    .set "nb" (.field (.field (.var "self") .ob_type) .tp_as_number) <|
    .ite (.or (.eq (.var "nb") .null) (.eq (.field (.var "nb") .nb_float) .null))
      (.eval (.call (.api .PyErr_SetString) [(.glob "PyExc_TypeError"), (.str "object can't be converted to float")]) <|
        .ret .null)
      .done <|
    .ret (.call (.field (.var "nb") .nb_float) [(.var "self")])

/-- _proxy.c:494-498 -/
def call_ipow : CFunc where
  name := "call_ipow"
  params := ["self", "other"]
  body :=
    .ret (.call (.api .PyNumber_InPlacePower) [(.var "self"), (.var "other"), (.glob "Py_None")])

/-- _proxy.c:500-500 -/
def proxy_add : CFunc where
  name := "proxy_add"
  params := ["self", "other"]
  body :=
    .ret (.call (.fn "check2") [(.var "self"), (.var "other"), (.glob "str_op_add"), (.glob "str_op_radd"), (.api .PyNumber_Add)])

/-- _proxy.c:501-501 -/
def proxy_sub : CFunc where
  name := "proxy_sub"
  params := ["self", "other"]
  body :=
    .ret (.call (.fn "check2") [(.var "self"), (.var "other"), (.glob "str_op_sub"), (.glob "str_op_rsub"), (.api .PyNumber_Subtract)])

/-- _proxy.c:502-502 -/
def proxy_mul : CFunc where
  name := "proxy_mul"
  params := ["self", "other"]
  body :=
    .ret (.call (.fn "check2") [(.var "self"), (.var "other"), (.glob "str_op_mul"), (.glob "str_op_rmul"), (.api .PyNumber_Multiply)])

/-- _proxy.c:503-503 -/
def proxy_mod : CFunc where
  name := "proxy_mod"
  params := ["self", "other"]
  body :=
    .ret (.call (.fn "check2") [(.var "self"), (.var "other"), (.glob "str_op_mod"), (.glob "str_op_rmod"), (.api .PyNumber_Remainder)])

/-- _proxy.c:504-504 -/
def proxy_divmod : CFunc where
  name := "proxy_divmod"
  params := ["self", "other"]
  body :=
    .ret (.call (.fn "check2") [(.var "self"), (.var "other"), (.glob "str_op_divmod"), (.glob "str_op_rdivmod"), (.api .PyNumber_Divmod)])

/-- _proxy.c:507-544 -/
def proxy_pow : CFunc where
  name := "proxy_pow"
  params := ["self", "other", "modulus"]
  body :=
    .set "result" .null <|
    .ite (.call (.api .PyObject_TypeCheck) [(.var "self"), (.addr "SecurityProxyType")])
      (.ite (.ge (.call (.fn "check") [(.var "self"), (.glob "str_check"), (.glob "str___pow__")]) (.int 0))
          (.set "result" (.call (.api .PyNumber_Power) [(.field (.var "self") .proxy_object), (.var "other"), (.var "modulus")]) <|
            .ite (.ne (.var "result") .null)
              (.ite (.and (.ne (.field (.field (.field (.var "self") .proxy_checker) .ob_type) .tp_as_mapping) .null) (.ne (.field (.field (.field (.field (.var "self") .proxy_checker) .ob_type) .tp_as_mapping) .mp_subscript) .null))
                  (.set "tmp" (.call (.field (.field (.field (.field (.var "self") .proxy_checker) .ob_type) .tp_as_mapping) .mp_subscript) [(.field (.var "self") .proxy_checker), (.var "result")]) <|
                    .done)
                  (.set "tmp" (.call (.api .PyObject_CallMethodObjArgs) [(.field (.var "self") .proxy_checker), (.glob "str_proxy"), (.var "result"), .null]) <|
                    .done) <|
                .eval (.call (.api .Py_DECREF) [(.var "result")]) <|
                .set "result" (.var "tmp") <|
                .done)
              .done <|
            .done)
          .done <|
        .done)
      (.ite (.call (.api .PyObject_TypeCheck) [(.var "other"), (.addr "SecurityProxyType")])
          (.ite (.ge (.call (.fn "check") [(.var "other"), (.glob "str_check"), (.glob "str___rpow__")]) (.int 0))
              (.set "result" (.call (.api .PyNumber_Power) [(.var "self"), (.field (.var "other") .proxy_object), (.var "modulus")]) <|
                .ite (.ne (.var "result") .null)
                  (.ite (.and (.ne (.field (.field (.field (.var "other") .proxy_checker) .ob_type) .tp_as_mapping) .null) (.ne (.field (.field (.field (.field (.var "other") .proxy_checker) .ob_type) .tp_as_mapping) .mp_subscript) .null))
                      (.set "tmp" (.call (.field (.field (.field (.field (.var "other") .proxy_checker) .ob_type) .tp_as_mapping) .mp_subscript) [(.field (.var "other") .proxy_checker), (.var "result")]) <|
                        .done)
                      (.set "tmp" (.call (.api .PyObject_CallMethodObjArgs) [(.field (.var "other") .proxy_checker), (.glob "str_proxy"), (.var "result"), .null]) <|
                        .done) <|
                    .eval (.call (.api .Py_DECREF) [(.var "result")]) <|
                    .set "result" (.var "tmp") <|
                    .done)
                  .done <|
                .done)
              .done <|
            .done)
          (.ite (.and (.ne (.var "modulus") .null) (.call (.api .PyObject_TypeCheck) [(.var "modulus"), (.addr "SecurityProxyType")]))
              (.ite (.ge (.call (.fn "check") [(.var "modulus"), (.glob "str_check"), (.glob "str___3pow__")]) (.int 0))
                  (.set "result" (.call (.api .PyNumber_Power) [(.var "self"), (.var "other"), (.field (.var "modulus") .proxy_object)]) <|
                    .ite (.ne (.var "result") .null)
                      (.ite (.and (.ne (.field (.field (.field (.var "modulus") .proxy_checker) .ob_type) .tp_as_mapping) .null) (.ne (.field (.field (.field (.field (.var "modulus") .proxy_checker) .ob_type) .tp_as_mapping) .mp_subscript) .null))
                          (.set "tmp" (.call (.field (.field (.field (.field (.var "modulus") .proxy_checker) .ob_type) .tp_as_mapping) .mp_subscript) [(.field (.var "modulus") .proxy_checker), (.var "result")]) <|
                            .done)
                          (.set "tmp" (.call (.api .PyObject_CallMethodObjArgs) [(.field (.var "modulus") .proxy_checker), (.glob "str_proxy"), (.var "result"), .null]) <|
                            .done) <|
                        .eval (.call (.api .Py_DECREF) [(.var "result")]) <|
                        .set "result" (.var "tmp") <|
                        .done)
                      .done <|
                    .done)
                  .done <|
                .done)
              (.eval (.call (.api .Py_INCREF) [(.glob "Py_NotImplemented")]) <|
                .ret (.glob "Py_NotImplemented")) <|
            .done) <|
        .done) <|
    .ret (.var "result")

/-- _proxy.c:546-546 -/
def proxy_lshift : CFunc where
  name := "proxy_lshift"
  params := ["self", "other"]
  body :=
    .ret (.call (.fn "check2") [(.var "self"), (.var "other"), (.glob "str_op_lshift"), (.glob "str_op_rlshift"), (.api .PyNumber_Lshift)])

/-- _proxy.c:547-547 -/
def proxy_rshift : CFunc where
  name := "proxy_rshift"
  params := ["self", "other"]
  body :=
    .ret (.call (.fn "check2") [(.var "self"), (.var "other"), (.glob "str_op_rshift"), (.glob "str_op_rrshift"), (.api .PyNumber_Rshift)])

/-- _proxy.c:548-548 -/
def proxy_and : CFunc where
  name := "proxy_and"
  params := ["self", "other"]
  body :=
    .ret (.call (.fn "check2") [(.var "self"), (.var "other"), (.glob "str_op_and"), (.glob "str_op_rand"), (.api .PyNumber_And)])

/-- _proxy.c:549-549 -/
def proxy_xor : CFunc where
  name := "proxy_xor"
  params := ["self", "other"]
  body :=
    .ret (.call (.fn "check2") [(.var "self"), (.var "other"), (.glob "str_op_xor"), (.glob "str_op_rxor"), (.api .PyNumber_Xor)])

/-- _proxy.c:550-550 -/
def proxy_or : CFunc where
  name := "proxy_or"
  params := ["self", "other"]
  body :=
    .ret (.call (.fn "check2") [(.var "self"), (.var "other"), (.glob "str_op_or"), (.glob "str_op_ror"), (.api .PyNumber_Or)])

/-- _proxy.c:552-552 -/
def proxy_neg : CFunc where
  name := "proxy_neg"
  params := ["self"]
  body :=
    .ret (.call (.fn "check1") [(.var "self"), (.glob "str_op_neg"), (.api .PyNumber_Negative)])

/-- _proxy.c:553-553 -/
def proxy_pos : CFunc where
  name := "proxy_pos"
  params := ["self"]
  body :=
    .ret (.call (.fn "check1") [(.var "self"), (.glob "str_op_pos"), (.api .PyNumber_Positive)])

/-- _proxy.c:554-554 -/
def proxy_abs : CFunc where
  name := "proxy_abs"
  params := ["self"]
  body :=
    .ret (.call (.fn "check1") [(.var "self"), (.glob "str_op_abs"), (.api .PyNumber_Absolute)])

/-- _proxy.c:557-560 -/
def proxy_bool : CFunc where
  name := "proxy_bool"
  params := ["self"]
  body :=
    .ret (.call (.api .PyObject_IsTrue) [(.field (.var "self") .proxy_object)])

/-- _proxy.c:562-562 -/
def proxy_invert : CFunc where
  name := "proxy_invert"
  params := ["self"]
  body :=
    .ret (.call (.fn "check1") [(.var "self"), (.glob "str_op_invert"), (.api .PyNumber_Invert)])

/-- _proxy.c:563-563 -/
def proxy_int : CFunc where
  name := "proxy_int"
  params := ["self"]
  body :=
    .ret (.call (.fn "check1") [(.var "self"), (.glob "str_op_int"), (.fn "call_int")])

/-- _proxy.c:564-564 -/
def proxy_float : CFunc where
  name := "proxy_float"
  params := ["self"]
  body :=
    .ret (.call (.fn "check1") [(.var "self"), (.glob "str_op_float"), (.fn "call_float")])

/-- _proxy.c:566-566 -/
def proxy_iadd : CFunc where
  name := "proxy_iadd"
  params := ["self", "other"]
  body :=
    .ret (.call (.fn "check2i") [(.var "self"), (.var "other"), (.glob "str_op_iadd"), (.api .PyNumber_InPlaceAdd)])

/-- _proxy.c:567-567 -/
def proxy_isub : CFunc where
  name := "proxy_isub"
  params := ["self", "other"]
  body :=
    .ret (.call (.fn "check2i") [(.var "self"), (.var "other"), (.glob "str_op_isub"), (.api .PyNumber_InPlaceSubtract)])

/-- _proxy.c:568-568 -/
def proxy_imul : CFunc where
  name := "proxy_imul"
  params := ["self", "other"]
  body :=
    .ret (.call (.fn "check2i") [(.var "self"), (.var "other"), (.glob "str_op_imul"), (.api .PyNumber_InPlaceMultiply)])

/-- _proxy.c:569-569 -/
def proxy_imod : CFunc where
  name := "proxy_imod"
  params := ["self", "other"]
  body :=
    .ret (.call (.fn "check2i") [(.var "self"), (.var "other"), (.glob "str_op_imod"), (.api .PyNumber_InPlaceRemainder)])

/-- _proxy.c:570-570 -/
def proxy_ipow : CFunc where
  name := "proxy_ipow"
  params := ["self", "other"]
  body :=
    .ret (.call (.fn "check2i") [(.var "self"), (.var "other"), (.glob "str_op_ipow"), (.fn "call_ipow")])

/-- _proxy.c:571-571 -/
def proxy_ilshift : CFunc where
  name := "proxy_ilshift"
  params := ["self", "other"]
  body :=
    .ret (.call (.fn "check2i") [(.var "self"), (.var "other"), (.glob "str_op_ilshift"), (.api .PyNumber_InPlaceLshift)])

/-- _proxy.c:572-572 -/
def proxy_irshift : CFunc where
  name := "proxy_irshift"
  params := ["self", "other"]
  body :=
    .ret (.call (.fn "check2i") [(.var "self"), (.var "other"), (.glob "str_op_irshift"), (.api .PyNumber_InPlaceRshift)])

/-- _proxy.c:573-573 -/
def proxy_iand : CFunc where
  name := "proxy_iand"
  params := ["self", "other"]
  body :=
    .ret (.call (.fn "check2i") [(.var "self"), (.var "other"), (.glob "str_op_iand"), (.api .PyNumber_InPlaceAnd)])

/-- _proxy.c:574-574 -/
def proxy_ixor : CFunc where
  name := "proxy_ixor"
  params := ["self", "other"]
  body :=
    .ret (.call (.fn "check2i") [(.var "self"), (.var "other"), (.glob "str_op_ixor"), (.api .PyNumber_InPlaceXor)])

/-- _proxy.c:575-575 -/
def proxy_ior : CFunc where
  name := "proxy_ior"
  params := ["self", "other"]
  body :=
    .ret (.call (.fn "check2i") [(.var "self"), (.var "other"), (.glob "str_op_ior"), (.api .PyNumber_InPlaceOr)])

/-- _proxy.c:577-577 -/
def proxy_floordiv : CFunc where
  name := "proxy_floordiv"
  params := ["self", "other"]
  body :=
    .ret (.call (.fn "check2") [(.var "self"), (.var "other"), (.glob "str_op_floordiv"), (.glob "str_op_rfloordiv"), (.api .PyNumber_FloorDivide)])

/-- _proxy.c:578-578 -/
def proxy_truediv : CFunc where
  name := "proxy_truediv"
  params := ["self", "other"]
  body :=
    .ret (.call (.fn "check2") [(.var "self"), (.var "other"), (.glob "str_op_truediv"), (.glob "str_op_rtruediv"), (.api .PyNumber_TrueDivide)])

/-- _proxy.c:579-579 -/
def proxy_ifloordiv : CFunc where
  name := "proxy_ifloordiv"
  params := ["self", "other"]
  body :=
    .ret (.call (.fn "check2i") [(.var "self"), (.var "other"), (.glob "str_op_ifloordiv"), (.api .PyNumber_InPlaceFloorDivide)])

/-- _proxy.c:580-580 -/
def proxy_itruediv : CFunc where
  name := "proxy_itruediv"
  params := ["self", "other"]
  body :=
    .ret (.call (.fn "check2i") [(.var "self"), (.var "other"), (.glob "str_op_itruediv"), (.api .PyNumber_InPlaceTrueDivide)])

/-- _proxy.c:587-592 -/
def proxy_length : CFunc where
  name := "proxy_length"
  params := ["self"]
  body :=
    .ite (.ge (.call (.fn "check") [(.var "self"), (.glob "str_check"), (.glob "str___len__")]) (.int 0))
      (.ret (.call (.api .PyObject_Length) [(.field (.var "self") .proxy_object)]))
      .done <|
    .ret (.int (-1))

/-- _proxy.c:595-607 -/
def proxy_length_hint : CFunc where
  name := "proxy_length_hint"
  params := ["self"]
  body :=
    .set "result" .null <|
    .set "result" (.call (.api .PyObject_CallMethod) [(.field (.var "self") .proxy_object), (.str "__length_hint__"), .null]) <|
    .ite (.eq (.var "result") .null)
      (.ite (.call (.api .PyErr_ExceptionMatches) [(.glob "PyExc_AttributeError")])
          (.eval (.call (.api .PyErr_Clear) []) <|
            .set "result" (.glob "Py_NotImplemented") <|
            .eval (.call (.api .Py_INCREF) [(.var "result")]) <|
            .done)
          .done <|
        .done)
      .done <|
    .ret (.var "result")

/-- _proxy.c:614-624 -/
def proxy_igetitem : CFunc where
  name := "proxy_igetitem"
  params := ["self", "i"]
  body :=
    .set "key" (.call (.api .PyLong_FromLong) [(.var "i")]) <|
    .set "res" .null <|
    .ite (.ne (.var "key") .null)
      (.set "res" (.call (.fn "proxy_getitem") [(.var "self"), (.var "key")]) <|
        .eval (.call (.api .Py_DECREF) [(.var "key")]) <|
        .done)
      .done <|
    .ret (.var "res")

/-- _proxy.c:628-638 -/
def proxy_isetitem : CFunc where
  name := "proxy_isetitem"
  params := ["self", "i", "value"]
  body :=
    .set "key" (.call (.api .PyLong_FromLong) [(.var "i")]) <|
    .set "res" (.int (-1)) <|
    .ite (.ne (.var "key") .null)
      (.set "res" (.call (.fn "proxy_setitem") [(.var "self"), (.var "key"), (.var "value")]) <|
        .eval (.call (.api .Py_DECREF) [(.var "key")]) <|
        .done)
      .done <|
    .ret (.var "res")

/-- _proxy.c:642-647 -/
def proxy_contains : CFunc where
  name := "proxy_contains"
  params := ["self", "value"]
  body :=
    .ite (.ge (.call (.fn "check") [(.var "self"), (.glob "str_check"), (.glob "str___contains__")]) (.int 0))
      (.ret (.call (.api .PySequence_Contains) [(.field (.var "self") .proxy_object), (.var "value")]))
      .done <|
    .ret (.int (-1))

/-- _proxy.c:654-664 -/
def proxy_getitem : CFunc where
  name := "proxy_getitem"
  params := ["self", "key"]
  body :=
    .set "result" .null <|
    .ite (.ge (.call (.fn "check") [(.var "self"), (.glob "str_check"), (.glob "str___getitem__")]) (.int 0))
      (.set "result" (.call (.api .PyObject_GetItem) [(.field (.var "self") .proxy_object), (.var "key")]) <|
        .ite (.ne (.var "result") .null)
          (.ite (.and (.ne (.field (.field (.field (.var "self") .proxy_checker) .ob_type) .tp_as_mapping) .null) (.ne (.field (.field (.field (.field (.var "self") .proxy_checker) .ob_type) .tp_as_mapping) .mp_subscript) .null))
              (.set "tmp" (.call (.field (.field (.field (.field (.var "self") .proxy_checker) .ob_type) .tp_as_mapping) .mp_subscript) [(.field (.var "self") .proxy_checker), (.var "result")]) <|
                .done)
              (.set "tmp" (.call (.api .PyObject_CallMethodObjArgs) [(.field (.var "self") .proxy_checker), (.glob "str_proxy"), (.var "result"), .null]) <|
                .done) <|
            .eval (.call (.api .Py_DECREF) [(.var "result")]) <|
            .set "result" (.var "tmp") <|
            .done)
          .done <|
        .done)
      .done <|
    .ret (.var "result")

/-- _proxy.c:667-678 -/
def proxy_setitem : CFunc where
  name := "proxy_setitem"
  params := ["self", "key", "value"]
  body :=
    .ite (.eq (.var "value") .null)
      (.ite (.ge (.call (.fn "check") [(.var "self"), (.glob "str_check"), (.glob "str___delitem__")]) (.int 0))
          (.ret (.call (.api .PyObject_DelItem) [(.field (.var "self") .proxy_object), (.var "key")]))
          .done <|
        .done)
      (.ite (.ge (.call (.fn "check") [(.var "self"), (.glob "str_check"), (.glob "str___setitem__")]) (.int 0))
          (.ret (.call (.api .PyObject_SetItem) [(.field (.var "self") .proxy_object), (.var "key"), (.var "value")]))
          .done <|
        .done) <|
    .ret (.int (-1))

/-- _proxy.c:812-824 -/
def module_getChecker : CFunc where
  name := "module_getChecker"
  params := ["self", "arg"]
  body :=
    .ite (.not (.call (.api .PyObject_TypeCheck) [(.var "arg"), (.addr "SecurityProxyType")]))
      (.eval (.call (.api .PyErr_SetString) [(.glob "PyExc_TypeError"), (.str "getChecker argument must be a _Proxy")]) <|
        .ret .null)
      .done <|
    .set "result" (.field (.var "arg") .proxy_checker) <|
    .eval (.call (.api .Py_INCREF) [(.var "result")]) <|
    .ret (.var "result")

/-- _proxy.c:827-838 -/
def module_getObject : CFunc where
  name := "module_getObject"
  params := ["self", "arg"]
  body :=
    .ite (.not (.call (.api .PyObject_TypeCheck) [(.var "arg"), (.addr "SecurityProxyType")]))
      (.set "result" (.var "arg") <|
        .done)
      (.set "result" (.field (.var "arg") .proxy_object) <|
        .done) <|
    .eval (.call (.api .Py_INCREF) [(.var "result")]) <|
    .ret (.var "result")

/-- The functions. -/
def functions : List CFunc :=
  [Checker_permission_id, Checker_setattr_permission_id, checkPermission, Checker_check_int, Checker_check, Checker_check_setattr,
   Checker_proxy, Checker_clear, Checker_init, Checker_get_get_permissions, Checker_get_set_permissions, selectChecker,
   check, check1, check2, check2i, proxy_new, proxy_init,
   proxy_clear, proxy_richcompare, proxy_iter, proxy_iternext, proxy_getattro, proxy_setattro,
   default_repr, proxy_str, proxy_repr, proxy_hash, proxy_call, call_int,
   call_float, call_ipow, proxy_add, proxy_sub, proxy_mul, proxy_mod,
   proxy_divmod, proxy_pow, proxy_lshift, proxy_rshift, proxy_and, proxy_xor,
   proxy_or, proxy_neg, proxy_pos, proxy_abs, proxy_bool, proxy_invert,
   proxy_int, proxy_float, proxy_iadd, proxy_isub, proxy_imul, proxy_imod,
   proxy_ipow, proxy_ilshift, proxy_irshift, proxy_iand, proxy_ixor, proxy_ior,
   proxy_floordiv, proxy_truediv, proxy_ifloordiv, proxy_itruediv, proxy_length, proxy_length_hint,
   proxy_igetitem, proxy_isetitem, proxy_contains, proxy_getitem, proxy_setitem, module_getChecker,
   module_getObject]

/-- The names that the initialisation functions put into static variables. -/
def strings : List (String × String) :=
  [("str_checkPermission", "checkPermission"),
   ("str___Security_checker__", "__Security_checker__"),
   ("str_interaction", "interaction"),
   ("str___3pow__", "__3pow__"),
   ("str___bool__", "__bool__"),
   ("str___call__", "__call__"),
   ("str_check", "check"),
   ("str_check_getattr", "check_getattr"),
   ("str_check_setattr", "check_setattr"),
   ("str___cmp__", "__cmp__"),
   ("str___contains__", "__contains__"),
   ("str___delitem__", "__delitem__"),
   ("str___getitem__", "__getitem__"),
   ("str___hash__", "__hash__"),
   ("str___iter__", "__iter__"),
   ("str___len__", "__len__"),
   ("str___next__", "__next__"),
   ("str_op_abs", "__abs__"),
   ("str_op_add", "__add__"),
   ("str_op_and", "__and__"),
   ("str_op_divmod", "__divmod__"),
   ("str_op_float", "__float__"),
   ("str_op_floordiv", "__floordiv__"),
   ("str_op_iadd", "__iadd__"),
   ("str_op_iand", "__iand__"),
   ("str_op_ifloordiv", "__ifloordiv__"),
   ("str_op_ilshift", "__ilshift__"),
   ("str_op_imod", "__imod__"),
   ("str_op_imul", "__imul__"),
   ("str_op_int", "__int__"),
   ("str_op_invert", "__invert__"),
   ("str_op_ior", "__ior__"),
   ("str_op_ipow", "__ipow__"),
   ("str_op_irshift", "__irshift__"),
   ("str_op_isub", "__isub__"),
   ("str_op_itruediv", "__itruediv__"),
   ("str_op_ixor", "__ixor__"),
   ("str_op_lshift", "__lshift__"),
   ("str_op_mod", "__mod__"),
   ("str_op_mul", "__mul__"),
   ("str_op_neg", "__neg__"),
   ("str_op_or", "__or__"),
   ("str_op_pos", "__pos__"),
   ("str_op_radd", "__radd__"),
   ("str_op_rand", "__rand__"),
   ("str_op_rdivmod", "__rdivmod__"),
   ("str_op_rfloordiv", "__rfloordiv__"),
   ("str_op_rlshift", "__rlshift__"),
   ("str_op_rmod", "__rmod__"),
   ("str_op_rmul", "__rmul__"),
   ("str_op_ror", "__ror__"),
   ("str_op_rrshift", "__rrshift__"),
   ("str_op_rshift", "__rshift__"),
   ("str_op_rsub", "__rsub__"),
   ("str_op_rtruediv", "__rtruediv__"),
   ("str_op_rxor", "__rxor__"),
   ("str_op_sub", "__sub__"),
   ("str_op_truediv", "__truediv__"),
   ("str_op_xor", "__xor__"),
   ("str___pow__", "__pow__"),
   ("str_proxy", "proxy"),
   ("str___repr__", "__repr__"),
   ("str___rpow__", "__rpow__"),
   ("str___setitem__", "__setitem__"),
   ("str___str__", "__str__"),
   ("__class__str", "__class__"),
   ("__name__str", "__name__"),
   ("__module__str", "__module__")]

/-- The attributes of modules that the initialisation functions put into static variables. -/
def imports : List (String × String) :=
  [("Proxy", "_Proxy"),
   ("thread_local", "thread_local"),
   ("ForbiddenAttribute", "ForbiddenAttribute"),
   ("Unauthorized", "Unauthorized"),
   ("CheckerPublic", "CheckerPublic")]

/-- _zope_security_checker.c:318-335 -/
def Checker_methods_c : List (List Entry) :=
  [[.text "permission_id", .ref "Checker_permission_id", .ref "METH_O", .text "permission_id(name) -- Return the permission neded to get the name"],
   [.text "setattr_permission_id", .ref "Checker_setattr_permission_id", .ref "METH_O", .text "setattr_permission_id(name) -- Return the permission neded to set the name"],
   [.text "check_getattr", .ref "Checker_check", .ref "METH_VARARGS", .text "check_getattr(object, name) -- Check whether a getattr is allowed"],
   [.text "check_setattr", .ref "Checker_check_setattr", .ref "METH_VARARGS", .text "check_setattr(object, name) -- Check whether a setattr is allowed"],
   [.text "check", .ref "Checker_check", .ref "METH_VARARGS", .text "check(object, opname) -- Check whether an operation is allowed"],
   [.text "proxy", .ref "Checker_proxy", .ref "METH_O", .text "proxy(object) -- Security-proxy an object"],
   [.zero, .zero]]

/-- _zope_security_checker.c:411-421 -/
def Checker_getset_c : List (List Entry) :=
  [[.text "get_permissions", .ref "Checker_get_get_permissions", .zero, .text "getattr name to permission dictionary", .zero],
   [.text "set_permissions", .ref "Checker_get_set_permissions", .zero, .text "setattr name to permission dictionary", .zero],
   [.zero]]

/-- _zope_security_checker.c:430-434 -/
def Checker_as_mapping_t : List Entry :=
  [.zero, .ref "Checker_proxy", .ref "Checker_check_int"]

/-- _zope_security_checker.c:438-481 -/
def CheckerType_t : List Entry :=
  [.text "zope.security.checker.Checker", .other, .zero, .ref "Checker_dealloc", .zero, .zero, .zero, .zero,
   .zero, .zero, .zero, .ref "Checker_as_mapping", .zero, .zero, .zero, .zero,
   .zero, .zero, .other, .text "Security checker", .ref "Checker_traverse", .ref "Checker_clear", .zero, .zero,
   .zero, .zero, .ref "Checker_methods", .zero, .ref "Checker_getset", .zero, .zero, .zero,
   .zero, .zero, .ref "Checker_init", .zero, .zero, .zero, .zero]

/-- _zope_security_checker.c:562-565 -/
def module_functions_c : List (List Entry) :=
  [[.text "selectChecker", .ref "selectChecker", .ref "METH_O", .ref "selectChecker_doc"],
   [.zero]]

/-- _proxy.c:685-725 -/
def proxy_as_number_t : List Entry :=
  [.ref "proxy_add", .ref "proxy_sub", .ref "proxy_mul", .ref "proxy_mod", .ref "proxy_divmod", .ref "proxy_pow", .ref "proxy_neg", .ref "proxy_pos",
   .ref "proxy_abs", .ref "proxy_bool", .ref "proxy_invert", .ref "proxy_lshift", .ref "proxy_rshift", .ref "proxy_and", .ref "proxy_xor", .ref "proxy_or",
   .ref "proxy_int", .zero, .ref "proxy_float", .ref "proxy_iadd", .ref "proxy_isub", .ref "proxy_imul", .ref "proxy_imod", .ref "proxy_ipow",
   .ref "proxy_ilshift", .ref "proxy_irshift", .ref "proxy_iand", .ref "proxy_ixor", .ref "proxy_ior", .ref "proxy_floordiv", .ref "proxy_truediv", .ref "proxy_ifloordiv",
   .ref "proxy_itruediv"]

/-- _proxy.c:728-737 -/
def proxy_as_sequence_t : List Entry :=
  [.ref "proxy_length", .zero, .zero, .ref "proxy_igetitem", .zero, .ref "proxy_isetitem", .zero, .ref "proxy_contains"]

/-- _proxy.c:740-744 -/
def proxy_as_mapping_t : List Entry :=
  [.ref "proxy_length", .ref "proxy_getitem", .ref "proxy_setitem"]

/-- _proxy.c:760-764 -/
def proxy_methods_p : List (List Entry) :=
  [[.text "__length_hint__", .ref "proxy_length_hint", .ref "METH_NOARGS", .text "Guess the length of the object"],
   [.zero, .zero]]

/-- _proxy.c:767-809 -/
def SecurityProxyType_t : List Entry :=
  [.text "zope.security._proxy._Proxy", .other, .zero, .ref "proxy_dealloc", .zero, .zero, .zero, .zero,
   .ref "proxy_repr", .ref "proxy_as_number", .ref "proxy_as_sequence", .ref "proxy_as_mapping", .ref "proxy_hash", .ref "proxy_call", .ref "proxy_str", .ref "proxy_getattro",
   .ref "proxy_setattro", .zero, .other, .ref "proxy_doc", .ref "proxy_traverse", .zero, .ref "proxy_richcompare", .zero,
   .ref "proxy_iter", .ref "proxy_iternext", .ref "proxy_methods", .zero, .zero, .zero, .zero, .zero,
   .zero, .zero, .ref "proxy_init", .zero, .ref "proxy_new", .zero]

/-- _proxy.c:844-849 -/
def module_functions_p : List (List Entry) :=
  [[.text "getChecker", .ref "module_getChecker", .ref "METH_O", .text "get checker from proxy"],
   [.text "getObject", .ref "module_getObject", .ref "METH_O", .text "Get the proxied object\n\nReturn the original object if not proxied."],
   [.zero]]

end Src
end ZS.CS
