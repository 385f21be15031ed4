import Verif.Model.Policy
import Verif.Model.Meta

/-!
# Python source code and what running it means

The syntax of the part of Python the package's functions are written in, and an interpreter.
The functions themselves are in `Verif/Source/*.lean`, which tools/pysource.py writes from the
text of the files.  Nothing here is specific to the package: what the names of a module, the
attributes, the calls and the operators mean is given by a `Lang` (`Model/PyHost.lean`).
-/

namespace ZS.PyC
open ZS

/-- Comparison operators. -/
inductive CmpOp where
  | is | isNot | isIn | notIn | eq | ne | lt | le | gt | ge
  deriving DecidableEq, Repr

/-- Expressions.  `star`, `kw` and `dstar` occur as arguments of a call only, `slice` as a
subscript only, `fmt` as a part of an f-string only. -/
inductive Expr where
  | loc (n : Name)
  | glo (n : Name)
  | str (s : String)
  | num (n : Int)
  | none
  | true
  | false
  | attr (e : Expr) (n : Name)
  | call (f : Expr) (args : List Expr)
  | star (e : Expr)
  | kw (n : Name) (e : Expr)
  | dstar (e : Expr)
  | cmp (op : CmpOp) (a b : Expr)
  | and (a b : Expr)
  | or (a b : Expr)
  | not (a : Expr)
  | ife (c a b : Expr)
  | bin (op : String) (a b : Expr)
  | sub (e i : Expr)
  | slice (lo hi : Expr)
  | tuple (l : List Expr)
  | list (l : List Expr)
  | dict (l : List Expr)
  | fstr (l : List Expr)
  | fmt (conv : String) (e : Expr)
  | comp (elt : Expr) (target : Name) (iter cond : Expr)

/-- Statements.  `handler` occurs in a `try` statement only. -/
inductive Stmt where
  | expr (e : Expr)
  | pass
  | assign (t e : Expr)
  | aug (op : String) (t e : Expr)
  | ret (e : Expr)
  | raise (e : Expr)
  | reraise
  | del (t : Expr)
  | if (c : Expr) (a b : List Stmt)
  | while (c : Expr) (a : List Stmt)
  | for (t it : Expr) (a : List Stmt)
  | break
  | continue
  | try (body handlers orelse final : List Stmt)
  | handler (ty : Option Expr) (as : Option Name) (body : List Stmt)
  | fdef (n id : Name)

/-- A function: parameters with their defaults, `*star`, `**dstar` and the body. -/
structure Fn where
  params : List (Name × Option Expr)
  star : Option Name
  dstar : Option Name
  body : List Stmt

/-- What an expression of the source can evaluate to.

* `v` is a value of the model;
* `dict` is a permission dictionary, `reg` one of the tables keyed by types;
* `exn` is an exception instance;
* `sym` is something a module-level name stands for that is no value of the model: a function,
  a class, a module, a builtin; `bound o m` is the attribute `m` of such a thing;
* `sup o` is what `super()` gives in a method of `o`;
* `base m` is the method `m` of `PyProxyBase`;
* `clos f env` is a function defined inside a function;
* `list` is a list nobody else refers to; `kwds` is the dictionary `**kw`;
* `part`, `user` and `parts` are a participation, its principal, and the list of an interaction's
  participations; `policy` is a security policy;
* `iface` is an interface and `descr` what it says about a name; `keydict` is a dictionary keyed by
  types and modules. -/
inductive PV where
  | v (x : Val)
  | dict (d : Nat)
  | exn (e : Exn)
  | sym (n : Name)
  | bound (o : PV) (m : Name)
  | sup (o : PV)
  | base (m : Name)
  | clos (f : Name) (env : List (Name × PV))
  | tuple (l : List PV)
  | list (l : List PV)
  | kwds (l : List (Name × PV))
  | part (p : Nat)
  | user (p : Principal)
  | parts (i : Nat)
  | policy (p : Policy)
  | slice (lo hi : PV)
  | iface (i : Iface)
  | descr (d : Descr)
  | keydict (d : PyDict Key Val)

/-- Local variables, the latest binding first. -/
abbrev Env := List (Name × PV)

/-- The value of a local variable. -/
def Env.get? : Env → Name → Option PV
  | [], _ => none
  | (k, x) :: r, n => if k = n then some x else Env.get? r n

/-- What `super()` is about: the first argument of a method, or of `__new__`. -/
def Env.receiver (env : Env) : Option PV :=
  match env.get? "self" with
  | some o => some o
  | none => env.get? "cls"

/-- Binding a local variable. -/
def Env.put (env : Env) (n : Name) (x : PV) : Env := (n, x) :: env

/-- Unbinding a local variable. -/
def Env.drop (env : Env) (n : Name) : Env := env.filter (fun p => decide (p.1 ≠ n))

/-- What the code runs in: the meaning of global names, attributes, calls, operators, exception
classes and truth values, and the fuel of `while` loops. -/
structure Lang (A : Type) where
  glob : Name → M A PV
  setGlob : Name → PV → M A Unit
  getattr : PV → Name → M A PV
  setattr : PV → Name → PV → M A Unit
  delattr : PV → Name → M A Unit
  getitem : PV → PV → M A PV
  setitem : PV → PV → PV → M A Unit
  delitem : PV → PV → M A Unit
  method : PV → Name → List PV → List (Name × PV) → M A PV
  call : PV → List PV → List (Name × PV) → M A PV
  same : PV → PV → Bool
  compare : CmpOp → PV → PV → M A PV
  bin : String → PV → PV → M A PV
  truth : PV → M A Bool
  fmt : String → PV → M A PV
  join : List PV → M A PV
  newDict : List PV → M A PV
  iter : PV → M A (List PV)
  unpack : PV → Option (List PV)
  catches : PV → Exn → Bool
  toExn : PV → Option Exn
  fuel : Nat

variable {A : Type}

/-- What the model says nothing about.  It is told from every value and every exception. -/
def stuck {α : Type} : M A α := M.diverge

/-- Spreading the pieces of an argument list: positional and keyword arguments so far. -/
abbrev Args := List PV × List (Name × PV)

/-- The elements of a comprehension. -/
def collect (f : PV → M A (Option PV)) : List PV → M A (List PV)
  | [] => pure []
  | x :: r => do
    let y ← f x
    let ys ← collect f r
    match y with
    | some y => pure (y :: ys)
    | none => pure ys

/-- `x is y`, `x is not y` without the host; everything else by the host. -/
def compareWith (L : Lang A) (op : CmpOp) (x y : PV) : M A PV :=
  match op with
  | .is => pure (.v (.bool (L.same x y)))
  | .isNot => pure (.v (.bool (!L.same x y)))
  | op => L.compare op x y

mutual

/-- Evaluating an expression: operands from left to right. -/
def eval (L : Lang A) : Expr → Env → M A PV
  | .loc n, env =>
    match env.get? n with
    | some x => pure x
    | none => stuck
  | .glo n, _ => L.glob n
  | .str s, _ => pure (.v (.str 0 s))
  | .num n, _ => pure (.v (.int n))
  | .none, _ => pure (.v .none)
  | .true, _ => pure (.v (.bool true))
  | .false, _ => pure (.v (.bool false))
  | .attr e n, env => do
    let o ← eval L e env
    L.getattr o n
  | .call f args, env =>
    match f with
    | .attr e m => do            -- a method call
      let o ← eval L e env
      let a ← evalArgs L args env
      L.method o m a.1 a.2
    | .glo n =>
      match n, args with
      | "super", [] =>           -- `super()`: the first argument of the method
        match env.receiver with
        | some o => pure (.sup o)
        | none => stuck
      | n, args => do
        let g ← L.glob n
        let a ← evalArgs L args env
        L.call g a.1 a.2
    | f => do
      let g ← eval L f env
      let a ← evalArgs L args env
      L.call g a.1 a.2
  | .star _, _ => stuck
  | .kw _ _, _ => stuck
  | .dstar _, _ => stuck
  | .cmp op a b, env => do
    let x ← eval L a env
    let y ← eval L b env
    compareWith L op x y
  | .and a b, env => do
    let x ← eval L a env
    let t ← L.truth x
    if t then eval L b env else pure x
  | .or a b, env => do
    let x ← eval L a env
    let t ← L.truth x
    if t then pure x else eval L b env
  | .not a, env => do
    let x ← eval L a env
    let t ← L.truth x
    pure (.v (.bool (!t)))
  | .ife c a b, env => do
    let x ← eval L c env
    let t ← L.truth x
    if t then eval L a env else eval L b env
  | .bin op a b, env => do
    let x ← eval L a env
    let y ← eval L b env
    L.bin op x y
  | .sub e i, env => do
    let x ← eval L e env
    let y ← eval L i env
    L.getitem x y
  | .slice lo hi, env => do
    let x ← eval L lo env
    let y ← eval L hi env
    pure (.slice x y)
  | .tuple l, env => do
    let a ← evalArgs L l env
    pure (.tuple a.1)
  | .list l, env => do
    let a ← evalArgs L l env
    pure (.list a.1)
  | .dict l, env => do
    let a ← evalArgs L l env
    L.newDict a.1
  | .fstr l, env => do
    let a ← evalArgs L l env
    L.join a.1
  | .fmt conv e, env => do
    let x ← eval L e env
    L.fmt conv x
  | .comp elt t it cond, env => do
    let x ← eval L it env
    let l ← L.iter x
    let r ← collect (fun y => do
      let c ← eval L cond (env.put t y)
      let b ← L.truth c
      if b then do
        let z ← eval L elt (env.put t y)
        pure (some z)
      else pure none) l
    pure (.list r)

/-- Evaluating the arguments of a call, or the elements of a tuple or list. -/
def evalArgs (L : Lang A) : List Expr → Env → M A Args
  | [], _ => pure ([], [])
  | .star e :: r, env => do
    let x ← eval L e env
    let l ← L.iter x
    let a ← evalArgs L r env
    pure (l ++ a.1, a.2)
  | .kw n e :: r, env => do
    let x ← eval L e env
    let a ← evalArgs L r env
    pure (a.1, (n, x) :: a.2)
  | .dstar e :: r, env => do
    let x ← eval L e env
    let a ← evalArgs L r env
    match x with
    | .kwds l => pure (a.1, l ++ a.2)
    | _ => stuck
  | e :: r, env => do
    let x ← eval L e env
    let a ← evalArgs L r env
    pure (x :: a.1, a.2)

end

/-- How a statement ends: going on, with a `return`, with an exception, by `break` or
`continue`; each with the local variables at that point. -/
inductive Flow where
  | next (env : Env)
  | ret (x : PV) (env : Env)
  | exc (e : Exn) (env : Env)
  | brk (env : Env)
  | cont (env : Env)

/-- The local variables at the end of a statement. -/
def Flow.env : Flow → Env
  | .next e => e
  | .ret _ e => e
  | .exc _ e => e
  | .brk e => e
  | .cont e => e

/-- The same end with other local variables. -/
def Flow.withEnv : Flow → Env → Flow
  | .next _, e => .next e
  | .ret x _, e => .ret x e
  | .exc x _, e => .exc x e
  | .brk _, e => .brk e
  | .cont _, e => .cont e

/-- Doing `x` inside a statement: an exception ends the statement. -/
def doing {α : Type} (env : Env) (x : M A α) (k : α → M A Flow) : M A Flow := fun s =>
  match x s with
  | (.ok a, s') => k a s'
  | (.err e, s') => (.ok (.exc e env), s')
  | (.diverge, s') => (.diverge, s')

/-- Assigning to each of several targets. -/
def assignAll (f : Expr → PV → Env → M A Env) : List Expr → List PV → Env → M A Env
  | [], [], env => pure env
  | t :: ts, x :: xs, env => do
    let env' ← f t x env
    assignAll f ts xs env'
  | _, _, _ => M.throw .valueError

/-- Assigning to a target that is not a tuple. -/
def assign1 (L : Lang A) : Expr → PV → Env → M A Env
  | .loc n, x, env => pure (env.put n x)
  | .glo n, x, env => do
    L.setGlob n x
    pure env
  | .attr e n, x, env => do
    let o ← eval L e env
    L.setattr o n x
    pure env
  | .sub e i, x, env => do
    let o ← eval L e env
    let k ← eval L i env
    L.setitem o k x
    pure env
  | _, _, _ => stuck

/-- Assigning to a target. -/
def assign (L : Lang A) (t : Expr) (x : PV) (env : Env) : M A Env :=
  match t with
  | .tuple ts =>
    match L.unpack x with
    | some xs => assignAll (assign1 L) ts xs env
    | none => M.throw .typeError
  | t => assign1 L t x env

/-- `del t`. -/
def delete (L : Lang A) (t : Expr) (env : Env) : M A Env :=
  match t with
  | .loc n => pure (env.drop n)
  | .attr e n => do
    let o ← eval L e env
    L.delattr o n
    pure env
  | .sub e i => do
    let o ← eval L e env
    let k ← eval L i env
    L.delitem o k
    pure env
  | _ => stuck

/-- A `while` loop: condition, body, fuel. -/
def whileLoop (c : Env → M A Bool) (b : Env → M A Flow) : Nat → Env → M A Flow
  | fuel, env => doing env (c env) fun t =>
    if t then
      match fuel with
      | 0 => M.diverge
      | k + 1 => do
        let f ← b env
        match f with
        | .next e => whileLoop c b k e
        | .cont e => whileLoop c b k e
        | .brk e => pure (.next e)
        | f => pure f
    else pure (.next env)

/-- A `for` loop over the items: binding the target, body. -/
def forLoop (t : PV → Env → M A Env) (b : Env → M A Flow) : List PV → Env → M A Flow
  | [], env => pure (.next env)
  | x :: r, env => doing env (t x env) fun e => do
    let f ← b e
    match f with
    | .next e => forLoop t b r e
    | .cont e => forLoop t b r e
    | .brk e => pure (.next e)
    | f => pure f

/-- The exception a `raise` statement raises. -/
def raising (L : Lang A) (x : PV) : Exn :=
  match L.toExn x with
  | some e => e
  | none => .typeError

mutual

/-- Running a statement.  `cur` is the exception being handled, for a bare `raise`. -/
def exec (L : Lang A) : Stmt → Option Exn → Env → M A Flow
  | .expr e, _, env => doing env (eval L e env) fun _ => pure (.next env)
  | .pass, _, env => pure (.next env)
  | .assign t e, _, env =>
    doing env (eval L e env) fun x =>
    doing env (assign L t x env) fun env' => pure (.next env')
  | .aug op t e, _, env =>
    doing env (do
      let a ← eval L t env
      let b ← eval L e env
      L.bin op a b) fun x =>
    doing env (assign L t x env) fun env' => pure (.next env')
  | .ret e, _, env => doing env (eval L e env) fun x => pure (.ret x env)
  | .raise e, _, env => doing env (eval L e env) fun x => pure (.exc (raising L x) env)
  | .reraise, cur, env =>
    match cur with
    | some e => pure (.exc e env)
    | none => stuck
  | .del t, _, env => doing env (delete L t env) fun env' => pure (.next env')
  | .if c a b, cur, env =>
    doing env (do
      let x ← eval L c env
      L.truth x) fun t => if t then execs L a cur env else execs L b cur env
  | .while c a, cur, env =>
    whileLoop (fun env => do
      let x ← eval L c env
      L.truth x) (fun env => execs L a cur env) L.fuel env
  | .for t it a, cur, env =>
    doing env (do
      let x ← eval L it env
      L.iter x) fun l => forLoop (assign L t) (fun env => execs L a cur env) l env
  | .break, _, env => pure (.brk env)
  | .continue, _, env => pure (.cont env)
  | .try body hs orelse final, cur, env => do
    let f ← execs L body cur env
    let f ← (match f with
      | .exc e env' => handle L hs e cur env'
      | .next env' => execs L orelse cur env'
      | f => pure f)
    let g ← execs L final cur f.env
    match g with
    | .next env' => pure (f.withEnv env')
    | g => pure g
  | .handler _ _ _, _, _ => stuck
  | .fdef n id, _, env => pure (.next (env.put n (.clos id env)))

/-- Running a block. -/
def execs (L : Lang A) : List Stmt → Option Exn → Env → M A Flow
  | [], _, env => pure (.next env)
  | x :: r, cur, env => do
    let f ← exec L x cur env
    match f with
    | .next env' => execs L r cur env'
    | f => pure f

/-- The handlers of a `try` statement: the first one whose class fits. -/
def handle (L : Lang A) : List Stmt → Exn → Option Exn → Env → M A Flow
  | [], e, _, env => pure (.exc e env)
  | .handler ty as body :: r, e, cur, env => do
    let fits ← (match ty with
      | none => pure true
      | some t => do
        let c ← eval L t env
        pure (L.catches c e))
    if fits then
      match as with
      | none => execs L body (some e) env
      | some n => do
        let f ← execs L body (some e) (env.put n (.exn e))
        pure (f.withEnv (f.env.drop n))
    else handle L r e cur env
  | _ :: _, _, _, _ => stuck

end

/-- The keyword argument of a name, and the other keyword arguments. -/
def takeKw (n : Name) : List (Name × PV) → Option PV
  | [] => none
  | (k, x) :: r => if k = n then some x else takeKw n r

/-- Binding the parameters: positional arguments first, then keyword arguments, then defaults;
what is left over goes to `*star` and `**dstar`. -/
def bindParams (L : Lang A) (f : Fn) : List (Name × Option Expr) → List PV → List (Name × PV) → Env →
    M A Env
  | (n, _) :: ps, x :: xs, kws, env => do
    if (takeKw n kws).isSome then M.throw .typeError
    else bindParams L f ps xs kws (env.put n x)
  | (n, d) :: ps, [], kws, env =>
    match takeKw n kws with
    | some x => bindParams L f ps [] (kws.filter (fun p => decide (p.1 ≠ n))) (env.put n x)
    | none =>
      match d with
      | none => M.throw .typeError
      | some e => do
        let x ← eval L e []
        bindParams L f ps [] kws (env.put n x)
  | [], xs, kws, env => do
    let env ← (match f.star with
      | some n => pure (env.put n (.tuple xs))
      | none => if xs.isEmpty then pure env else M.throw .typeError)
    match f.dstar with
    | some n => pure (env.put n (.kwds kws))
    | none => if kws.isEmpty then pure env else M.throw .typeError

/-- Calling a function whose enclosing variables are `outer`. -/
def runIn (L : Lang A) (f : Fn) (outer : Env) (args : List PV) (kws : List (Name × PV)) : M A PV := do
  let env ← bindParams L f f.params args kws outer
  let r ← execs L f.body none env
  match r with
  | .ret x _ => pure x
  | .exc e _ => M.throw e
  | .next _ => pure (.v .none)
  | _ => stuck

/-- Calling a function of a module with positional arguments. -/
def run (L : Lang A) (f : Fn) (args : List PV) : M A PV := runIn L f [] args []

end ZS.PyC
