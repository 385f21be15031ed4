import Verif.Model.PyHost
import Verif.Model.Watching
import Verif.Source.Checker

/-!
# What the names in the source of watching checkers mean

The messages of `CheckerLoggingMixin` are lists of pieces: text, the name, and the representation of the object, which is obtained by running its
`repr` when the message is made.  A message written to the file is kept with the state of the application.
-/

namespace ZS.PyC
open ZS
variable {A : Type}

/-- The state of the application with the messages written so far. -/
abbrev Logged (A : Type) : Type := A × List PV

/-- The state without the messages. -/
def unlogged (s : St (Logged A)) : St A := { s with app := s.app.1 }

/-- The state with messages. -/
def logged (s : St A) (l : List PV) : St (Logged A) := { s with app := (s.app, l) }

/-- Doing something that writes no message. -/
def quietly {α : Type} (x : M A α) : M (Logged A) α := fun s => ((x (unlogged s)).1, logged (x (unlogged s)).2 s.app.2)

/-! ## Messages -/

/-- A template: text, a value, its representation. -/
inductive Piece where
  | lit (s : String)
  | str
  | repr
  deriving DecidableEq, Repr

/-- Text collected so far, last character first. -/
def litOf (acc : List Char) : List Piece := if acc.isEmpty then [] else [.lit (String.ofList acc.reverse)]

/-- A template for the operator `%`. -/
def percent : List Char → List Char → List Piece
  | '%' :: 's' :: r, acc => litOf acc ++ .str :: percent r []
  | '%' :: 'r' :: r, acc => litOf acc ++ .repr :: percent r []
  | c :: r, acc => percent r (c :: acc)
  | [], acc => litOf acc

/-- A template for `format`. -/
def braces : List Char → List Char → List Piece
  | '{' :: '}' :: r, acc => litOf acc ++ .str :: braces r []
  | '{' :: '!' :: 'r' :: '}' :: r, acc => litOf acc ++ .repr :: braces r []
  | c :: r, acc => braces r (c :: acc)
  | [], acc => litOf acc

/-- `str(x)`, as pieces of a message: of a string, or of a message. -/
def strPieces : PV → Option (List PV)
  | .v (.str _ t) => some [.v (.str 0 t)]
  | .list m => some m
  | _ => none

/-- `repr(x)`. -/
def wrepr (X : Ctx A) (x : PV) : M (Logged A) PV :=
  match x with
  | .v o => do
    let _ ← quietly (reprOf X o)
    pure (.bound (.v o) "__repr__")
  | _ => stuck

/-- Filling a template. -/
def fill (X : Ctx A) : List Piece → List PV → M (Logged A) (List PV)
  | [], [] => pure []
  | .lit t :: r, args => do
    let l ← fill X r args
    pure (.v (.str 0 t) :: l)
  | .str :: r, x :: args =>
    match strPieces x with
    | some m => do
      let l ← fill X r args
      pure (m ++ l)
    | none => stuck
  | .repr :: r, x :: args => do
    let y ← wrepr X x
    let l ← fill X r args
    pure (y :: l)
  | _, _ => stuck

/-- A message from a template. -/
def message (X : Ctx A) (t : List Piece) (args : List PV) : M (Logged A) PV := do
  let l ← fill X t args
  pure (.list l)

/-- `template % x`. -/
def wbin (X : Ctx A) (op : String) (x y : PV) : M (Logged A) PV :=
  match x, y with
  | .v (.str _ t), .tuple args => if op = "%" then message X (percent t.toList []) args else stuck
  | .v (.str _ t), .list m => if op = "%" then message X (percent t.toList []) [.list m] else stuck
  | _, _ => stuck

/-- A part of an f-string. -/
def wfmt (X : Ctx A) (conv : String) (x : PV) : M (Logged A) PV :=
  if conv = "r" then wrepr X x
  else
    match x with
    | .v (.str _ t) => if conv = "" then pure (.v (.str 0 t)) else stuck
    | _ => stuck

/-! ## Names -/

/-- Names of checker.py. -/
def wglob (n : Name) : M (Logged A) PV :=
  if n ∈ ["Unauthorized", "ForbiddenAttribute", "_available_by_default", "Checker"] then pure (.sym n) else stuck

/-- Attributes of the checker: its verbosity, the file it writes to, and the second half of a combined one. -/
def wgetattr (v : Int) (o : PV) (n : Name) : M (Logged A) PV :=
  match o with
  | .sym c =>
    if c = "self" then
      if n = "verbosity" then pure (.v (.int v))
      else if n = "_file" ∨ n = "_checker2" then pure (.sym n)
      else stuck
    else stuck
  | _ => stuck

/-- Comparing numbers; `name in _available_by_default`. -/
def wcompare (op : CmpOp) (x y : PV) : M (Logged A) PV :=
  match op, x, y with
  | .gt, .v (.int a), .v (.int b) => pure (.v (.bool (decide (a > b))))
  | .ge, .v (.int a), .v (.int b) => pure (.v (.bool (decide (a ≥ b))))
  | .isIn, .v (.str _ n), .sym c =>
    if c = "_available_by_default" then do
      let s ← M.get
      pure (.v (.bool (decide (n ∈ s.avail))))
    else stuck
  | _, _, _ => stuck

/-- `bool(x)`. -/
def wtruth (x : PV) : M (Logged A) Bool :=
  match x with
  | .v (.bool b) => pure b
  | _ => stuck

/-- A checking method, called with an object and a name. -/
abbrev Checking (A : Type) : Type := Name → Val → Name → M (Logged A) PV

/-- Methods.  `super()` and `Checker` in a checker that is watched, and the second half of a combined checker, have the checking methods given;
`log` runs `_log`. -/
def wmethod (X : Ctx A) (sup cls second : Checking A) (log : List PV → M (Logged A) PV) (o : PV) (m : Name) (args : List PV)
    (_ : List (Name × PV)) : M (Logged A) PV :=
  match o, args with
  | .sup _, [.v x, .v (.str _ n)] => sup m x n
  | .v (.str _ t), args => if m = "format" then message X (braces t.toList []) args else stuck
  | .sym c, args =>
    if c = "self" then if m = "_log" then log (.sym "self" :: args) else stuck
    else if c = "_file" then
      match args with
      | [.list l] => if m = "write" then do
          M.modify fun s => { s with app := (s.app.1, s.app.2 ++ [.list l]) }
          pure (.v .none)
        else stuck
      | _ => stuck
    else if c = "Checker" then
      match args with
      | [.sym d, .v x, .v (.str _ n)] => if d = "self" then cls m x n else stuck
      | _ => stuck
    else if c = "_checker2" then
      match args with
      | [.v x, .v (.str _ n)] => second m x n
      | _ => stuck
    else stuck
  | _, _ => stuck

/-- The language of the mixin and of combined checkers. -/
def watchWith (X : Ctx A) (v : Int) (sup cls second : Checking A) (log : List PV → M (Logged A) PV) : Lang (Logged A) where
  glob := wglob
  setGlob := fun _ _ => stuck
  getattr := wgetattr v
  setattr := fun _ _ _ => stuck
  delattr := fun _ _ => stuck
  getitem := fun _ _ => stuck
  setitem := fun _ _ _ => stuck
  delitem := fun _ _ => stuck
  method := wmethod X sup cls second log
  call := fun _ _ _ => stuck
  same := same
  compare := wcompare
  bin := wbin X
  truth := wtruth
  fmt := wfmt X
  join := fun l => pure (.list l)
  newDict := fun _ => stuck
  iter := fun _ => stuck
  unpack := lunpack
  catches := lcatches
  toExn := ltoExn
  fuel := 0

/-- Nothing. -/
def noChecking : Checking A := fun _ _ _ => stuck

/-- The language of the mixin over a base class with the checking methods `sup`; `_log` is run from source. -/
def watchLang (X : Ctx A) (v : Int) (sup : Checking A) : Lang (Logged A) :=
  watchWith X v sup noChecking noChecking fun args =>
    run (watchWith X v noChecking noChecking noChecking fun _ => stuck) Src.Checker.CheckerLoggingMixin._log args

/-- The language of `CombinedChecker`, `Checker` having the methods `cls` and the second half `second`. -/
def combinedLang (X : Ctx A) (cls second : Checking A) : Lang (Logged A) :=
  watchWith X 0 noChecking cls second fun _ => stuck

/-! ## Checking from source -/

/-- The methods of the mixin. -/
def mixinFn : CheckKind → Fn
  | .check => Src.Checker.CheckerLoggingMixin.check
  | .getattr => Src.Checker.CheckerLoggingMixin.check_getattr
  | .setattr => Src.Checker.CheckerLoggingMixin.check_setattr

/-- The methods of `CombinedChecker`; `check_getattr` is `check` (checker.py:576). -/
def combinedFn : CheckKind → Fn
  | .setattr => Src.Checker.CombinedChecker.check_setattr
  | _ => Src.Checker.CombinedChecker.check

/-- The checking methods of `Checker`: those of the model (proved from source in C76). -/
def baseChecking (X : Ctx A) (H : Val → Name → M A Bool) (g st : Nat) : Checking A := fun m o n =>
  if m = "check" then quietly (unit (plainCheck X H g o n))
  else if m = "check_setattr" then quietly (unit (plainSetattr X st o n))
  else stuck

/-- The kind of a check by the name of the method. -/
def checkKindOf (m : Name) : Option CheckKind :=
  if m = "check" then some .check
  else if m = "check_getattr" then some .getattr
  else if m = "check_setattr" then some .setattr
  else none

/-- A checking method of a checker whose class is `WatchingChecker`, or of one that is not watched. -/
def sourceHalf (X : Ctx A) (H : Val → Name → M A Bool) (v : Option Int) (g st : Nat) (k : CheckKind) (o : Val) (n : Name) : M (Logged A) PV :=
  match v with
  | some v => run (watchLang X v (baseChecking X H g st)) (mixinFn k) [.sym "self", .v o, .v (.str 0 n)]
  | none =>
    match k with
    | .setattr => quietly (unit (plainSetattr X st o n))
    | _ => quietly (unit (plainCheck X H g o n))

/-- The methods of the name. -/
def named (f : CheckKind → Val → Name → M (Logged A) PV) : Checking A := fun m o n =>
  match checkKindOf m with
  | some k => f k o n
  | none => stuck

/-- The checking methods when checkers may be watching ones, from source. -/
def sourceWatch (X : Ctx A) (H : Val → Name → M A Bool) (verb : Val → Option Int) : CheckKind → Val → Val → Name → M (Logged A) PV
  | k, .checker i g st, o, n => sourceHalf X H (verb (.checker i g st)) g st k o n
  | k, .combined i g st c2, o, n =>
    run (combinedLang X (named fun k o n => sourceHalf X H (verb (.combined i g st c2)) g st k o n)
      (named fun k o n => sourceWatch X H verb k c2 o n)) (combinedFn k) [.sym "self", .v o, .v (.str 0 n)]
  | k, v, o, n => quietly (unit (chkCheck X H k v o n))

end ZS.PyC
