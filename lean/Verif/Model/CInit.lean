import Verif.Source.CPlain
import Verif.Model.Gc

/-!
# Running the C functions of the collector and of the initialisation

Two interpreters for the syntax of `Model/CPlain.lean`.

The first runs the `PyInit_*` functions.  Every call that can fail does so or not, as somebody else decides; the run is a tree of
these decisions.  References are counted: a call that returns a new reference adds one to those owned,
`Py_DECREF` and `PyModule_AddObject` take one away, and taking away or using what is not owned is undefined, as is
everything the interpreter does not know.

The second runs the functions of the collector on one object: `visit` is an arbitrary function with a state,
releasing a reference, untracking and freeing are events, and touching the object after it is freed is undefined.
-/

namespace ZS.CI

/-! ## Initialisation -/

/-- Objects: a module made here with its method table, a module imported, an attribute of it, a string, a static
type, and what is made from a type by the n-th call. -/
inductive Obj
  | module (name methods : String)
  | imported (name : String)
  | attr (m n : String)
  | text (s : String)
  | type (t : String)
  | made (what : String) (n : Nat)
  deriving DecidableEq

inductive V
  | null
  | int (i : Int)
  | obj (o : Obj)
  | lit (s : String)
  /-- `&moduledef` -/
  | defn
  /-- a name from outside -/
  | name (n : String)
  deriving DecidableEq

/-- What happens. -/
inductive Ev
  | call (f : String) (args : List V) (failed : Bool)
  | assign (x : String) (v : V)
  | slot (t f : String) (v : V)
  deriving DecidableEq

structure I where
  vars : List (String × V)
  defn : Option (String × String)
  /-- the references owned -/
  own : List Obj
  /-- the names in the module -/
  exported : List (String × Obj)
  /-- how many calls there were -/
  calls : Nat
  log : List Ev
  deriving DecidableEq

def I.start : I := ⟨[], none, [], [], 0, []⟩

/-- The event happens. -/
def I.note (s : I) (e : Ev) : I := { s with log := s.log ++ [e] }

/-- A variable is assigned. -/
def I.assign (s : I) (x : String) (v : V) : I :=
  { s with vars := (x, v) :: s.vars.filter fun e => e.1 ≠ x, log := s.log ++ [.assign x v] }

/-- The value of a name. -/
def I.look (s : I) (n : String) : V := (s.vars.lookup n).getD (.name n)

/-- The object may be used: a static type, or something of which a reference is owned. -/
def I.usable (s : I) : Obj → Bool
  | .type _ => true
  | o => decide (o ∈ s.own)

/-- A run: it ends with a value, or in something undefined, or the next call fails or not. -/
inductive Tree
  | done (v : V) (s : I)
  | stuck
  | ask (k : Bool → Tree)

/-- The calls fail as `fails` says. -/
def Tree.run : Tree → (Nat → Bool) → Nat → Option (V × I)
  | .done v s, _, _ => some (v, s)
  | .stuck, _, _ => none
  | .ask k, fails, n => (k (fails n)).run fails (n + 1)

/-- A call that returns a new reference, or NULL. -/
def create (f : String) (vs : List V) (o : Obj) (s : I) (k : V → I → Tree) : Tree :=
  .ask fun failed =>
    let s := { s with calls := s.calls + 1 }.note (.call f vs failed)
    if failed then k .null s else k (.obj o) { s with own := s.own ++ [o] }

/-- A call that returns 0, or -1. -/
def attempt (f : String) (vs : List V) (s : I) (done : I → I) (k : V → I → Tree) : Tree :=
  .ask fun failed =>
    let s := { s with calls := s.calls + 1 }.note (.call f vs failed)
    if failed then k (.int (-1)) s else k (.int 0) (done s)

/-- The functions of the C API, and `Proxy_Import` of zope.proxy.  `PyModule_AddObject` takes the reference if it succeeds. -/
def apply (f : String) (vs : List V) (s : I) (k : V → I → Tree) : Tree :=
  match f, vs with
  | "PyModule_Create", [.defn] =>
    match s.defn with
    | some (n, m) => create f vs (.module n m) s k
    | none => .stuck
  | "Proxy_Import", [] => attempt f vs s id k
  | "PyUnicode_InternFromString", [.lit t] => create f vs (.text t) s k
  | "PyUnicode_FromString", [.lit t] => create f vs (.text t) s k
  | "PyType_Ready", [.obj (.type _)] => attempt f vs s id k
  | "PyObject_CallFunction", [.obj (.type t), .lit "{}"] => create f vs (.made t s.calls) s k
  | "PyObject_CallObject", [.obj (.type t), .null] => create f vs (.made t s.calls) s k
  | "PyDict_New", [] => create f vs (.made "dict" s.calls) s k
  | "PyList_New", [.int 0] => create f vs (.made "list" s.calls) s k
  | "PyImport_ImportModule", [.lit m] => create f vs (.imported m) s k
  | "PyObject_GetAttrString", [.obj (.imported m), .lit n] =>
    if s.usable (.imported m) then create f vs (.attr m n) s k else .stuck
  | "Py_INCREF", [.obj o] => if s.usable o then k .null { s with own := s.own ++ [o] } else .stuck
  | "Py_DECREF", [.obj o] => if o ∈ s.own then k .null { s with own := s.own.erase o } else .stuck
  | "PyModule_AddObject", [.obj (.module n m), .lit x, .obj o] =>
    if Obj.module n m ∈ s.own ∧ o ∈ s.own then
      attempt f vs s (fun s => { s with own := s.own.erase o, exported := s.exported ++ [(x, o)] }) k
    else .stuck
  | _, _ => .stuck

def V.truth : V → Option Bool
  | .null => some false
  | .int i => some (decide (i ≠ 0))
  | .obj _ => some true
  | _ => none

mutual

/-- An expression; `k` is what is done with the value. -/
def eval : J → I → (V → I → Tree) → Tree
  | .id n, s, k => k (s.look n) s
  | .int i, s, k => k (.int i) s
  | .str t, s, k => k (.lit t) s
  | .null, s, k => k .null s
  | .call (.id f) args, s, k => evalArgs args s fun vs s => apply f vs s k
  | .call _ _, _, _ => .stuck
  | .fld _ _, _, _ => .stuck
  | .ref (.id n), s, k => k (if n = "moduledef" then .defn else .obj (.type n)) s
  | .ref _, _, _ => .stuck
  | .set (.id x) e, s, k => eval e s fun v s => k v (s.assign x v)
  | .set (.fld (.id t) f) e, s, k => eval e s fun v s => k v (s.note (.slot t f v))
  | .set _ _, _, _ => .stuck
  | .eq a b, s, k => eval a s fun v s => eval b s fun w s => k (.int (if v = w then 1 else 0)) s
  | .ne a b, s, k => eval a s fun v s => eval b s fun w s => k (.int (if v = w then 0 else 1)) s
  | .lt a b, s, k => eval a s fun v s => eval b s fun w s =>
      match v, w with
      | .int i, .int j => k (.int (if i < j then 1 else 0)) s
      | _, _ => .stuck
  | .and a b, s, k => eval a s fun v s =>
      match v.truth with
      | some true => eval b s k
      | some false => k (.int 0) s
      | none => .stuck
  | .not a, s, k => eval a s fun v s =>
      match v.truth with
      | some b => k (.int (if b then 0 else 1)) s
      | none => .stuck

def evalArgs : List J → I → (List V → I → Tree) → Tree
  | [], s, k => k [] s
  | e :: r, s, k => eval e s fun v s => evalArgs r s fun vs s => k (v :: vs) s

end

/-- The value may be returned. -/
def result (v : V) (s : I) : Tree :=
  match v with
  | .null => .done .null s
  | .obj o => if o ∈ s.own then .done (.obj o) s else .stuck
  | _ => .stuck

def exec : List T → I → Tree
  | [], _ => .stuck
  | .moduleDef n m :: r, s => exec r { s with defn := some (n, m) }
  | .eval e :: r, s => eval e s fun _ s => exec r s
  | .guard c e :: r, s => eval c s fun v s =>
      match v.truth with
      | some true => eval e s result
      | some false => exec r s
      | none => .stuck
  | .ret e :: _, s => eval e s result

/-- An initialisation function, run with the calls failing as `fails` says. -/
def initRun (f : List T) (fails : Nat → Bool) : Option (V × I) := (exec f .start).run fails 0

/-! ## The collector -/

/-- What is done with an object. -/
inductive GcEv
  | untrack
  | release (o : Nat)
  | free
  deriving DecidableEq

/-- One object: its fields, what was done with it, whether it was freed; and the state of the visiting function. -/
structure G (σ : Type) where
  fields : List (String × Option Nat)
  log : List GcEv
  freed : Bool
  arg : σ

inductive GV
  | void
  | int (i : Int)
  | ptr (p : Option Nat)
  | self
  | arg

/-- A field of the object, which must not be freed. -/
def G.field {σ : Type} (g : G σ) (f : String) : Option (Option Nat) := if g.freed then none else g.fields.lookup f

/-- A field is set to NULL. -/
def G.unset {σ : Type} (g : G σ) (f : String) : G σ :=
  { g with fields := g.fields.map fun e => if e.1 = f then (f, none) else e }

/-- `CLEAR` of a field. -/
def G.clear {σ : Type} (g : G σ) (f : String) : Option (G σ) :=
  match g.field f with
  | some (some o) => let g := g.unset f; some { g with log := g.log ++ [.release o] }
  | some none => some g
  | none => none

def G.free {σ : Type} (g : G σ) : Option (G σ) := if g.freed then none else some { g with freed := true, log := g.log ++ [.free] }

/-- The name of the field in `self->f` and `self->proxy.f`. -/
def selfField : J → Option String
  | .fld (.id "self") f => some f
  | .fld (.fld (.id "self") "proxy") f => some f
  | _ => none

/-- The functions of the files that these functions call. -/
def gcFn : String → Option (List T)
  | "Checker_clear" => some Src.Checker_clear
  | "proxy_clear" => some Src.proxy_clear
  | _ => none

def GV.truth : GV → Option Bool
  | .int i => some (decide (i ≠ 0))
  | .ptr p => some p.isSome
  | _ => none

/-- Expressions, the functions of the files being run by `call`.  The base type's `tp_clear` clears `proxy_object`, its
`tp_dealloc` does so and frees (zope.proxy, outside `/repo`). -/
def gcEval {σ : Type} (visit : Gc.Visit σ) (call : String → G σ → Option (GV × G σ)) : J → G σ → Option (GV × G σ)
  | .id n, g => if n = "self" then some (.self, g) else if n = "arg" then some (.arg, g) else none
  | .int i, g => some (.int i, g)
  | .null, g => some (.ptr none, g)
  | .fld e f, g =>
    match selfField (.fld e f) with
    | some f => (g.field f).map fun p => (.ptr p, g)
    | none => none
  | .call (.id "visit") [e, .id "arg"], g =>
    match selfField e with
    | some f =>
      match g.field f with
      | some (some o) => let (v, a) := visit o g.arg; some (.int v, { g with arg := a })
      | _ => none
    | none => none
  | .call (.id "CLEAR") [e], g =>
    match selfField e with
    | some f => (g.clear f).map fun g => (.void, g)
    | none => none
  | .call (.id "PyObject_GC_UnTrack") [.id "self"], g => some (.void, { g with log := g.log ++ [.untrack] })
  | .call (.fld (.fld (.id "SecurityProxyType") "tp_base") "tp_clear") [.id "self"], g =>
    (g.clear "proxy_object").map fun g => (.int 0, g)
  | .call (.fld (.fld (.id "SecurityProxyType") "tp_base") "tp_dealloc") [.id "self"], g =>
    ((g.clear "proxy_object").bind G.free).map fun g => (.void, g)
  | .call (.fld (.call (.id "Py_TYPE") [.id "self"]) "tp_free") [.id "self"], g => g.free.map fun g => (.void, g)
  | .call (.id f) [.id "self"], g => call f g
  | .ne a b, g =>
    match gcEval visit call a g with
    | some (.ptr p, g) =>
      match gcEval visit call b g with
      | some (.ptr r, g) => some (.int (if p = r then 0 else 1), g)
      | _ => none
    | _ => none
  | .lt a b, g =>
    match gcEval visit call a g with
    | some (.int i, g) =>
      match gcEval visit call b g with
      | some (.int j, g) => some (.int (if i < j then 1 else 0), g)
      | _ => none
    | _ => none
  | .and a b, g =>
    match gcEval visit call a g with
    | some (v, g) =>
      match v.truth with
      | some true => gcEval visit call b g
      | some false => some (.int 0, g)
      | none => none
    | none => none
  | _, _ => none

/-- Statements.  `Py_VISIT(x)` visits what is not NULL and returns what is not 0. -/
def gcExec {σ : Type} (visit : Gc.Visit σ) (call : String → G σ → Option (GV × G σ)) : List T → G σ → Option (GV × G σ)
  | [], g => some (.void, g)
  | .moduleDef _ _ :: _, _ => none
  | .eval (.call (.id "Py_VISIT") [e]) :: r, g =>
    match selfField e with
    | some f =>
      match g.field f with
      | some (some o) =>
        let (v, a) := visit o g.arg
        if v ≠ 0 then some (.int v, { g with arg := a }) else gcExec visit call r { g with arg := a }
      | some none => gcExec visit call r g
      | none => none
    | none => none
  | .eval e :: r, g => (gcEval visit call e g).bind fun x => gcExec visit call r x.2
  | .guard c e :: r, g =>
    match gcEval visit call c g with
    | some (v, g) =>
      match v.truth with
      | some true => gcEval visit call e g
      | some false => gcExec visit call r g
      | none => none
    | none => none
  | .ret e :: _, g => gcEval visit call e g

/-- A function of the collector on an object; the functions it calls call no others. -/
def gcRun {σ : Type} (visit : Gc.Visit σ) (f : List T) (g : G σ) : Option (GV × G σ) :=
  gcExec visit (fun n g => (gcFn n).bind fun b => gcExec visit (fun _ _ => none) b g) f g

end ZS.CI
