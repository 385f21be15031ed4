/-!
# Module-level code

The syntax in which `tools/modsource.py` writes what stands outside functions in the Python modules.  The lists of names
are the global names that are read.
-/

namespace ZS.Top

/-- The right side of an assignment. -/
inductive Rhs
  | name (y : String)
  | not (y : String)
  | bool (b : Bool)
  /-- `y.n` -/
  | attr (y n : String)
  | other
  deriving DecidableEq

/-- The condition of an `if`. -/
inductive Cond
  | name (y : String)
  | not (y : String)
  | other (uses : List String)
  deriving DecidableEq

inductive Top
  | imp (m : String)
  /-- `from m import n as x` -/
  | frm (m n x : String)
  | assign (x : String) (v : Rhs) (uses : List String)
  /-- `def x` and `class x` -/
  | make (x : String) (uses : List String)
  /-- `x.n = …` -/
  | setattr (x n : String) (uses : List String)
  /-- `x[…] = …`, `x.update(…)` -/
  | store (x : String) (uses : List String)
  | del (x : String)
  | ite (c : Cond) (body orelse : List Top)
  /-- `try: body; except types: handler; else: orelse` -/
  | tryexc (body : List Top) (types : List String) (handler orelse : List Top)
  /-- anything else; `binds` are the names assigned -/
  | work (uses binds : List String)

end ZS.Top
