/-!
# Syntax of C

The statements and expressions that `_zope_security_checker.c` and `_proxy.c` use, as far as their functions are run
in `Model/CRun.lean`.  `tools/csource.py` writes the functions of the two files in this form (`Source/CFiles.lean`):
comments and casts are gone, the macros that the files define are expanded, except `CLEAR`, and `->` and `.` are the
same.
-/

namespace ZS.CS

/-- The functions of Python's C API that are called, by their names in C. -/
inductive Api
  | Py_INCREF | Py_XINCREF | Py_DECREF | Py_XDECREF | Py_TYPE | Py_BuildValue | strcmp
  | PyBytes_AS_STRING | PyUnicode_AsUTF8String | PyUnicode_Check | PyUnicode_FromFormat | PyLong_FromLong
  | PyDict_GetItem | PyDict_New | PyErr_Clear | PyErr_ExceptionMatches | PyErr_SetObject | PyErr_SetString | PyIter_Next
  | PyObject_Call | PyObject_CallFunctionObjArgs | PyObject_CallMethod | PyObject_CallMethodObjArgs
  | PyObject_DelItem | PyObject_GetAttr | PyObject_GetItem | PyObject_GetIter | PyObject_HasAttr | PyObject_Hash
  | PyObject_IsInstance | PyObject_IsTrue | PyObject_Length | PyObject_Repr | PyObject_RichCompare | PyObject_SetAttr
  | PyObject_SetItem | PyObject_Str | PyObject_TypeCheck | PySequence_Contains
  | PyNumber_Absolute | PyNumber_Add | PyNumber_And | PyNumber_Divmod | PyNumber_FloorDivide
  | PyNumber_InPlaceAdd | PyNumber_InPlaceAnd | PyNumber_InPlaceFloorDivide | PyNumber_InPlaceLshift
  | PyNumber_InPlaceMultiply | PyNumber_InPlaceOr | PyNumber_InPlacePower | PyNumber_InPlaceRemainder
  | PyNumber_InPlaceRshift | PyNumber_InPlaceSubtract | PyNumber_InPlaceTrueDivide | PyNumber_InPlaceXor
  | PyNumber_Invert | PyNumber_Lshift | PyNumber_Multiply | PyNumber_Negative | PyNumber_Or | PyNumber_Positive
  | PyNumber_Power | PyNumber_Remainder | PyNumber_Rshift | PyNumber_Subtract | PyNumber_TrueDivide | PyNumber_Xor
  deriving DecidableEq, Repr

/-- Members of structures. -/
inductive Fld
  | getperms | setperms | proxy_checker | proxy_object | ob_type | tp_as_mapping | mp_ass_subscript | mp_subscript
  | tp_as_number | nb_int | nb_float | tp_alloc | tp_base | tp_clear
  deriving DecidableEq, Repr

/-- Expressions. -/
inductive X
  /-- a parameter or local variable -/
  | var (n : String)
  /-- a static variable, of the file or of Python -/
  | glob (n : String)
  /-- a function of the files, or of the C API -/
  | fn (n : String)
  | api (a : Api)
  | int (i : Int)
  | null
  | str (s : String)
  | chr (c : Char)
  /-- `&x` -/
  | addr (n : String)
  /-- `e->f` and `e.f` -/
  | field (e : X) (f : Fld)
  /-- `e[i]` -/
  | index (e : X) (i : Nat)
  | not (e : X)
  | and (a b : X)
  | or (a b : X)
  | eq (a b : X)
  | ne (a b : X)
  | lt (a b : X)
  | ge (a b : X)
  | call (f : X) (args : List X)

/-- Statements, each with those that follow it. -/
inductive S
  /-- nothing follows -/
  | done
  /-- `x = e;` also with a declaration -/
  | set (x : String) (e : X) (rest : S)
  /-- `o->f = e;` -/
  | store (o : X) (f : Fld) (e : X) (rest : S)
  /-- `CLEAR(o->f);` -/
  | clear (o : X) (f : Fld) (rest : S)
  /-- `e;` -/
  | eval (e : X) (rest : S)
  | ite (c : X) (a b : S) (rest : S)
  | loop (c : X) (body : S) (rest : S)
  /-- `if (!PyArg_ParseTuple(args, "O…|O…", &outs, …)) fail`, with or without keywords; so many are required -/
  | parse (args : X) (required : Nat) (outs : List String) (fail : S) (rest : S)
  | ret (e : X)
  | goto (l : String)
  | label (l : String) (rest : S)

/-- A function. -/
structure CFunc where
  name : String
  params : List String
  body : S

/-- What a member of a table is initialised to: 0 or NULL, a text, a name, something else. -/
inductive Entry
  | zero
  | text (s : String)
  | ref (n : String)
  | other
  deriving DecidableEq, Repr

end ZS.CS
