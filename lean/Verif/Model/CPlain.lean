/-!
# Syntax of the C functions of the collector and of the initialisation

`*_clear`, `*_dealloc`, `*_traverse` and the `PyInit_*` functions of the two C files consist of calls, assignments and
`if (c) return e;`.  `tools/csource.py` writes them in this form (`Source/CPlain.lean`), with the macros of the
files expanded except `CLEAR`, without casts and declarations of local variables.
-/

namespace ZS.CI

/-- Expressions. -/
inductive J
  | id (n : String)
  | int (i : Int)
  | str (s : String)
  | null
  | call (f : J) (args : List J)
  /-- `e->f` and `e.f` -/
  | fld (e : J) (f : String)
  /-- `&e` -/
  | ref (e : J)
  /-- `x = e` -/
  | set (x e : J)
  | eq (a b : J)
  | ne (a b : J)
  | lt (a b : J)
  | and (a b : J)
  | not (a : J)

/-- Statements. -/
inductive T
  /-- `static struct PyModuleDef moduledef = {PyModuleDef_HEAD_INIT, name, doc, -1, methods, };` -/
  | moduleDef (name methods : String)
  | eval (e : J)
  /-- `if (c) return r;` -/
  | guard (c r : J)
  | ret (e : J)

end ZS.CI
