import Verif.Model.PyHost

/-!
# Running source code step by step

`fork x k h` goes on with `k` or, after an exception, with `h`.  Each form of expression and
statement in front of a continuation is rewritten to its parts, so that a run becomes a tree of the
operations the source carries out.
-/

namespace ZS.PyC
open ZS
variable {A α β γ : Type}

/-- Go on with `k` after a value and with `h` after an exception. -/
def fork (x : M A α) (k : α → St A → Res β × St A) (h : Exn → St A → Res β × St A) (s : St A) : Res β × St A :=
  match x s with
  | (.ok a, s') => k a s'
  | (.err e, s') => h e s'
  | (.diverge, s') => (.diverge, s')

@[congr] theorem fork_congr {x x' : M A α} {k : α → St A → Res β × St A} {h : Exn → St A → Res β × St A} {s : St A} (e : x = x') :
    fork x k h s = fork x' k h s := by rw [e]

theorem fork_ext {x : M A α} {k k' : α → St A → Res β × St A} {h h' : Exn → St A → Res β × St A} {s : St A}
    (hk : ∀ a s', x s = (.ok a, s') → k a s' = k' a s')
    (hh : ∀ e s', x s = (.err e, s') → h e s' = h' e s') : fork x k h s = fork x k' h' s := by
  unfold fork
  cases hx : x s with
  | mk r s1 =>
    cases r with
    | ok a => exact hk a s1 hx
    | err e => exact hh e s1 hx
    | diverge => rfl

/-- The end of a run. -/
def okK (a : α) (s : St A) : Res α × St A := (.ok a, s)

/-- The end of a run by an exception. -/
def errK (e : Exn) (s : St A) : Res α × St A := (.err e, s)

theorem asFork (x : M A α) (s : St A) : x s = fork x okK errK s := by
  unfold fork
  cases hx : x s with
  | mk r s1 => cases r <;> rfl

theorem fork_run {x : M A α} {r : Res α × St A} {s : St A} (e : fork x okK errK s = r) : x s = r := (asFork x s).trans e

theorem ext_fork {x y : M A α} (e : ∀ s, fork x okK errK s = fork y okK errK s) : x = y := by
  funext s
  rw [asFork x s, asFork y s, e s]

theorem fork_pure (a : α) (k : α → St A → Res β × St A) (h : Exn → St A → Res β × St A) (s : St A) : fork (pure a) k h s = k a s := (rfl)
theorem fork_throw (e : Exn) (k : α → St A → Res β × St A) (h : Exn → St A → Res β × St A) (s : St A) : fork (M.throw e) k h s = h e s := (rfl)
theorem fork_diverge (k : α → St A → Res β × St A) (h : Exn → St A → Res β × St A) (s : St A) : fork M.diverge k h s = (.diverge, s) := (rfl)
theorem fork_stuck (k : α → St A → Res β × St A) (h : Exn → St A → Res β × St A) (s : St A) : fork stuck k h s = (.diverge, s) := (rfl)
theorem fork_get (k : St A → St A → Res β × St A) (h : Exn → St A → Res β × St A) (s : St A) : fork M.get k h s = k s s := (rfl)
theorem fork_modify (f : St A → St A) (k : Unit → St A → Res β × St A) (h : Exn → St A → Res β × St A) (s : St A) :
    fork (M.modify f) k h s = k () (f s) := (rfl)

theorem fork_bind (x : M A α) (f : α → M A β) (k : β → St A → Res γ × St A) (h : Exn → St A → Res γ × St A) (s : St A) :
    fork (x >>= f) k h s = fork x (fun a => fork (f a) k h) h s := by
  unfold fork
  rw [run_bind]
  cases hx : x s with
  | mk r s1 => cases r <;> rfl

theorem fork_tryCatch (x : M A α) (p : Exn → Bool) (g : Exn → M A α) (k : α → St A → Res β × St A) (h : Exn → St A → Res β × St A) (s : St A) :
    fork (M.tryCatch x p g) k h s = fork x k (fun e s' => if p e then fork (g e) k h s' else h e s') s := by
  unfold fork M.tryCatch
  cases hx : x s with
  | mk r s1 =>
    cases r with
    | err e => cases hp : p e <;> simp [hp]
    | _ => rfl

theorem fork_ite (c : Prop) [Decidable c] (x y : M A α) (k : α → St A → Res β × St A) (h : Exn → St A → Res β × St A) (s : St A) :
    fork (if c then x else y) k h s = if c then fork x k h s else fork y k h s := by split <;> rfl

theorem ite_run (c : Prop) [Decidable c] (x y : M A α) (s : St A) :
    (if c then x else y) s = if c then x s else y s := by split <;> rfl

variable {L : Lang A} {k : PV → St A → Res β × St A} {h : Exn → St A → Res β × St A} {s : St A} {env : Env}

/-! ## Expressions -/

section eval
/-- The value of a local variable. -/
def fetch : Option PV → M A PV
  | some x => pure x
  | none => stuck
theorem get_nil (n : Name) : Env.get? [] n = none := (rfl)
theorem get_cons (m : Name) (x : PV) (r : Env) (n : Name) : Env.get? ((m, x) :: r) n = bif m == n then some x else Env.get? r n := by
  rw [Env.get?]
  by_cases h : m = n
  · subst h; simp
  · have : (m == n) = false := beq_eq_false_iff_ne.2 h
    rw [if_neg h, this]; rfl
theorem fork_fetch (x : PV) : fork (fetch (some x)) k h s = k x s := (rfl)
theorem ev_loc (n : Name) : fork (eval L (.loc n) env) k h s =
    fork (fetch (env.get? n)) k h s := by rw [eval]; cases env.get? n <;> rfl
theorem ev_glo (n : Name) : fork (eval L (.glo n) env) k h s = fork (L.glob n) k h s := by rw [eval]
theorem ev_str (t : String) : fork (eval L (.str t) env) k h s = k (.v (.str 0 t)) s := by rw [eval]; rfl
theorem ev_num (n : Int) : fork (eval L (.num n) env) k h s = k (.v (.int n)) s := by rw [eval]; rfl
theorem ev_none : fork (eval L .none env) k h s = k (.v .none) s := by rw [eval]; rfl
theorem ev_true : fork (eval L .true env) k h s = k (.v (.bool true)) s := by rw [eval]; rfl
theorem ev_false : fork (eval L .false env) k h s = k (.v (.bool false)) s := by rw [eval]; rfl
theorem ev_attr (e : Expr) (n : Name) : fork (eval L (.attr e n) env) k h s =
    fork (eval L e env) (fun o => fork (L.getattr o n) k h) h s := by rw [eval, fork_bind]
theorem ev_method (e : Expr) (m : Name) (args : List Expr) : fork (eval L (.call (.attr e m) args) env) k h s =
    fork (eval L e env) (fun o => fork (evalArgs L args env) (fun a => fork (L.method o m a.1 a.2) k h) h) h s := by
  rw [eval, fork_bind]; congr 1; funext o s; rw [fork_bind]
theorem ev_super : fork (eval L (.call (.glo "super") []) env) k h s =
    fork (fetch env.receiver) (fun o => k (.sup o)) h s := by rw [eval]; cases env.receiver <;> rfl
theorem ev_callG (n : Name) (args : List Expr) (hn : (n == "super") = false) : fork (eval L (.call (.glo n) args) env) k h s =
    fork (L.glob n) (fun o => fork (evalArgs L args env) (fun a => fork (L.call o a.1 a.2) k h) h) h s := by
  rw [eval]
  · rw [fork_bind]; congr 1; funext o s; rw [fork_bind]
  · intro h; rw [h] at hn; cases hn
theorem ev_callN (n : Name) (a : Expr) (args : List Expr) : fork (eval L (.call (.glo n) (a :: args)) env) k h s =
    fork (L.glob n) (fun o => fork (evalArgs L (a :: args) env) (fun a => fork (L.call o a.1 a.2) k h) h) h s := by
  rw [eval]
  · rw [fork_bind]; congr 1; funext o s; rw [fork_bind]
  · intro _ h; cases h
theorem ev_call_query : fork (eval L (.call (.glo "queryInteraction") []) env) k h s =
    fork (L.glob "queryInteraction") (fun o => fork (evalArgs L [] env) (fun a => fork (L.call o a.1 a.2) k h) h) h s :=
  ev_callG _ _ rfl
theorem ev_call_policy : fork (eval L (.call (.glo "getSecurityPolicy") []) env) k h s =
    fork (L.glob "getSecurityPolicy") (fun o => fork (evalArgs L [] env) (fun a => fork (L.call o a.1 a.2) k h) h) h s :=
  ev_callG _ _ rfl
theorem ev_call_attributeError : fork (eval L (.call (.glo "AttributeError") []) env) k h s =
    fork (L.glob "AttributeError") (fun o => fork (evalArgs L [] env) (fun a => fork (L.call o a.1 a.2) k h) h) h s :=
  ev_callG _ _ rfl
theorem ev_call_notImplemented : fork (eval L (.call (.glo "NotImplementedError") []) env) k h s =
    fork (L.glob "NotImplementedError") (fun o => fork (evalArgs L [] env) (fun a => fork (L.call o a.1 a.2) k h) h) h s :=
  ev_callG _ _ rfl
theorem ev_callC (f : Expr) (a0 args : List Expr) : fork (eval L (.call (.call f a0) args) env) k h s =
    fork (eval L (.call f a0) env) (fun o => fork (evalArgs L args env) (fun a => fork (L.call o a.1 a.2) k h) h) h s := by
  conv => lhs; rw [eval.eq_def]
  simp only []
  rw [fork_bind]; congr 1; funext o s; rw [fork_bind]
theorem ev_callL (n : Name) (args : List Expr) : fork (eval L (.call (.loc n) args) env) k h s =
    fork (eval L (.loc n) env) (fun o => fork (evalArgs L args env) (fun a => fork (L.call o a.1 a.2) k h) h) h s := by
  conv => lhs; rw [eval.eq_def]
  simp only []
  rw [fork_bind]; congr 1; funext o s; rw [fork_bind]
theorem ev_cmp (op : CmpOp) (a b : Expr) : fork (eval L (.cmp op a b) env) k h s =
    fork (eval L a env) (fun x => fork (eval L b env) (fun y => fork (compareWith L op x y) k h) h) h s := by
  rw [eval, fork_bind]; congr 1; funext o s; rw [fork_bind]
theorem ev_and (a b : Expr) : fork (eval L (.and a b) env) k h s =
    fork (eval L a env) (fun x => fork (L.truth x) (fun t s => if t then fork (eval L b env) k h s else k x s) h) h s := by
  rw [eval, fork_bind]; congr 1; funext o s; rw [fork_bind]; congr 1; funext t s; cases t <;> rfl
theorem ev_or (a b : Expr) : fork (eval L (.or a b) env) k h s =
    fork (eval L a env) (fun x => fork (L.truth x) (fun t s => if t then k x s else fork (eval L b env) k h s) h) h s := by
  rw [eval, fork_bind]; congr 1; funext o s; rw [fork_bind]; congr 1; funext t s; cases t <;> rfl
theorem ev_not (a : Expr) : fork (eval L (.not a) env) k h s =
    fork (eval L a env) (fun x => fork (L.truth x) (fun t => k (.v (.bool (!t)))) h) h s := by
  rw [eval, fork_bind]; congr 1; funext o s; rw [fork_bind]; rfl
theorem ev_ife (c a b : Expr) : fork (eval L (.ife c a b) env) k h s =
    fork (eval L c env) (fun x => fork (L.truth x) (fun t s => if t then fork (eval L a env) k h s else fork (eval L b env) k h s) h) h s := by
  rw [eval, fork_bind]; congr 1; funext o s; rw [fork_bind]; congr 1; funext t s; cases t <;> rfl
theorem ev_bin (op : String) (a b : Expr) : fork (eval L (.bin op a b) env) k h s =
    fork (eval L a env) (fun x => fork (eval L b env) (fun y => fork (L.bin op x y) k h) h) h s := by
  rw [eval, fork_bind]; congr 1; funext o s; rw [fork_bind]
theorem ev_sub (a b : Expr) : fork (eval L (.sub a b) env) k h s =
    fork (eval L a env) (fun x => fork (eval L b env) (fun y => fork (L.getitem x y) k h) h) h s := by
  rw [eval, fork_bind]; congr 1; funext o s; rw [fork_bind]
theorem ev_slice (a b : Expr) : fork (eval L (.slice a b) env) k h s =
    fork (eval L a env) (fun x => fork (eval L b env) (fun y => k (.slice x y)) h) h s := by
  rw [eval, fork_bind]; congr 1; funext o s; rw [fork_bind]; rfl
theorem ev_tuple (l : List Expr) : fork (eval L (.tuple l) env) k h s =
    fork (evalArgs L l env) (fun a => k (.tuple a.1)) h s := by rw [eval, fork_bind]; rfl
theorem ev_list (l : List Expr) : fork (eval L (.list l) env) k h s =
    fork (evalArgs L l env) (fun a => k (.list a.1)) h s := by rw [eval, fork_bind]; rfl
theorem ev_dict (l : List Expr) : fork (eval L (.dict l) env) k h s =
    fork (evalArgs L l env) (fun a => fork (L.newDict a.1) k h) h s := by rw [eval, fork_bind]
/-- One item of a comprehension. -/
def pick (L : Lang A) (elt : Expr) (t : Name) (cond : Expr) (env : Env) (y : PV) : M A (Option PV) := do
  let c ← eval L cond (env.put t y)
  let b ← L.truth c
  if b then do
    let z ← eval L elt (env.put t y)
    pure (some z)
  else pure none
theorem ev_comp (elt : Expr) (t : Name) (it cond : Expr) : fork (eval L (.comp elt t it cond) env) k h s =
    fork (eval L it env) (fun x => fork (L.iter x) (fun l => fork (collect (pick L elt t cond env) l) (fun r => k (.list r)) h) h) h s := by
  rw [eval, fork_bind]; congr 1; funext o s; rw [fork_bind]; congr 1; funext o s; rw [fork_bind]; rfl
theorem ev_fstr (l : List Expr) : fork (eval L (.fstr l) env) k h s =
    fork (evalArgs L l env) (fun a => fork (L.join a.1) k h) h s := by rw [eval, fork_bind]
theorem ev_fmt (conv : String) (e : Expr) : fork (eval L (.fmt conv e) env) k h s =
    fork (eval L e env) (fun x => fork (L.fmt conv x) k h) h s := by rw [eval, fork_bind]
end eval

/-! ## Arguments -/

section args
variable {ka : Args → St A → Res β × St A}
/-- `**x` in an argument list. -/
def spread (x : PV) (a : Args) : M A Args :=
  match x with
  | .kwds l => pure (a.1, l ++ a.2)
  | _ => stuck
theorem fork_spread (l : List (Name × PV)) (a : Args) : fork (spread (.kwds l) a) ka h s = ka (a.1, l ++ a.2) s := (rfl)
theorem ea_nil : fork (evalArgs L [] env) ka h s = ka ([], []) s := by rw [evalArgs]; rfl
theorem ea_star (e : Expr) (r : List Expr) : fork (evalArgs L (.star e :: r) env) ka h s =
    fork (eval L e env) (fun x => fork (L.iter x) (fun l => fork (evalArgs L r env) (fun a => ka (l ++ a.1, a.2)) h) h) h s := by
  rw [evalArgs, fork_bind]; congr 1; funext o s; rw [fork_bind]; congr 1; funext o s; rw [fork_bind]; rfl
theorem ea_kw (n : Name) (e : Expr) (r : List Expr) : fork (evalArgs L (.kw n e :: r) env) ka h s =
    fork (eval L e env) (fun x => fork (evalArgs L r env) (fun a => ka (a.1, (n, x) :: a.2)) h) h s := by
  rw [evalArgs, fork_bind]; congr 1; funext o s; rw [fork_bind]; rfl
theorem ea_dstar (e : Expr) (r : List Expr) : fork (evalArgs L (.dstar e :: r) env) ka h s =
    fork (eval L e env) (fun x => fork (evalArgs L r env) (fun a => fork (spread x a) ka h) h) h s := by
  rw [evalArgs, fork_bind]; congr 1; funext o s; rw [fork_bind]; congr 1
/-- The expression is an ordinary argument. -/
def Expr.plain : Expr → Bool
  | .star _ => Bool.false
  | .kw _ _ => Bool.false
  | .dstar _ => Bool.false
  | _ => Bool.true
theorem ea_cons (e : Expr) (r : List Expr) (he : e.plain = Bool.true) : fork (evalArgs L (e :: r) env) ka h s =
    fork (eval L e env) (fun x => fork (evalArgs L r env) (fun a => ka (x :: a.1, a.2)) h) h s := by
  rw [evalArgs]
  · rw [fork_bind]; congr 1; funext o s; rw [fork_bind]; rfl
  all_goals (intros; subst_vars; cases he)
theorem ea_loc (n : Name) (r : List Expr) : fork (evalArgs L (.loc n :: r) env) ka h s =
    fork (eval L (.loc n) env) (fun x => fork (evalArgs L r env) (fun a => ka (x :: a.1, a.2)) h) h s := ea_cons _ r rfl
theorem ea_glo (n : Name) (r : List Expr) : fork (evalArgs L (.glo n :: r) env) ka h s =
    fork (eval L (.glo n) env) (fun x => fork (evalArgs L r env) (fun a => ka (x :: a.1, a.2)) h) h s := ea_cons _ r rfl
theorem ea_str (t : String) (r : List Expr) : fork (evalArgs L (.str t :: r) env) ka h s =
    fork (eval L (.str t) env) (fun x => fork (evalArgs L r env) (fun a => ka (x :: a.1, a.2)) h) h s := ea_cons _ r rfl
theorem ea_num (n : Int) (r : List Expr) : fork (evalArgs L (.num n :: r) env) ka h s =
    fork (eval L (.num n) env) (fun x => fork (evalArgs L r env) (fun a => ka (x :: a.1, a.2)) h) h s := ea_cons _ r rfl
theorem ea_none  (r : List Expr) : fork (evalArgs L (.none :: r) env) ka h s =
    fork (eval L (.none) env) (fun x => fork (evalArgs L r env) (fun a => ka (x :: a.1, a.2)) h) h s := ea_cons _ r rfl
theorem ea_true  (r : List Expr) : fork (evalArgs L (.true :: r) env) ka h s =
    fork (eval L (.true) env) (fun x => fork (evalArgs L r env) (fun a => ka (x :: a.1, a.2)) h) h s := ea_cons _ r rfl
theorem ea_false  (r : List Expr) : fork (evalArgs L (.false :: r) env) ka h s =
    fork (eval L (.false) env) (fun x => fork (evalArgs L r env) (fun a => ka (x :: a.1, a.2)) h) h s := ea_cons _ r rfl
theorem ea_attr (e : Expr) (n : Name) (r : List Expr) : fork (evalArgs L (.attr e n :: r) env) ka h s =
    fork (eval L (.attr e n) env) (fun x => fork (evalArgs L r env) (fun a => ka (x :: a.1, a.2)) h) h s := ea_cons _ r rfl
theorem ea_call (f : Expr) (l : List Expr) (r : List Expr) : fork (evalArgs L (.call f l :: r) env) ka h s =
    fork (eval L (.call f l) env) (fun x => fork (evalArgs L r env) (fun a => ka (x :: a.1, a.2)) h) h s := ea_cons _ r rfl
theorem ea_cmp (o : CmpOp) (a b : Expr) (r : List Expr) : fork (evalArgs L (.cmp o a b :: r) env) ka h s =
    fork (eval L (.cmp o a b) env) (fun x => fork (evalArgs L r env) (fun a => ka (x :: a.1, a.2)) h) h s := ea_cons _ r rfl
theorem ea_bin (o : String) (a b : Expr) (r : List Expr) : fork (evalArgs L (.bin o a b :: r) env) ka h s =
    fork (eval L (.bin o a b) env) (fun x => fork (evalArgs L r env) (fun a => ka (x :: a.1, a.2)) h) h s := ea_cons _ r rfl
theorem ea_tuple (l : List Expr) (r : List Expr) : fork (evalArgs L (.tuple l :: r) env) ka h s =
    fork (eval L (.tuple l) env) (fun x => fork (evalArgs L r env) (fun a => ka (x :: a.1, a.2)) h) h s := ea_cons _ r rfl
theorem ea_fmt (c : String) (e : Expr) (r : List Expr) : fork (evalArgs L (.fmt c e :: r) env) ka h s =
    fork (eval L (.fmt c e) env) (fun x => fork (evalArgs L r env) (fun a => ka (x :: a.1, a.2)) h) h s := ea_cons _ r rfl
theorem ea_sub (a b : Expr) (r : List Expr) : fork (evalArgs L (.sub a b :: r) env) ka h s =
    fork (eval L (.sub a b) env) (fun x => fork (evalArgs L r env) (fun a => ka (x :: a.1, a.2)) h) h s := ea_cons _ r rfl
theorem ea_not (a : Expr) (r : List Expr) : fork (evalArgs L (.not a :: r) env) ka h s =
    fork (eval L (.not a) env) (fun x => fork (evalArgs L r env) (fun a => ka (x :: a.1, a.2)) h) h s := ea_cons _ r rfl
end args

/-! ## Statements -/

section exec
variable {cur : Option Exn} {kf : Flow → St A → Res β × St A}

theorem fork_doing {δ : Type} (x : M A δ) (f : δ → M A Flow) : fork (doing env x f) kf h s =
    fork x (fun a => fork (f a) kf h) (fun e => kf (.exc e env)) s := by
  unfold fork doing
  cases hx : x s with
  | mk r s1 => cases r <;> rfl

theorem ex_expr (e : Expr) : fork (exec L (.expr e) cur env) kf h s =
    fork (eval L e env) (fun _ => kf (.next env)) (fun e => kf (.exc e env)) s := by rw [exec, fork_doing]; rfl
theorem ex_pass : fork (exec L .pass cur env) kf h s = kf (.next env) s := by rw [exec]; rfl
theorem ex_assign (t e : Expr) : fork (exec L (.assign t e) cur env) kf h s =
    fork (eval L e env) (fun x => fork (assign L t x env) (fun env' => kf (.next env')) (fun e => kf (.exc e env)))
      (fun e => kf (.exc e env)) s := by
  rw [exec, fork_doing]; congr 1; funext x s; rw [fork_doing]; rfl
theorem ex_ret (e : Expr) : fork (exec L (.ret e) cur env) kf h s =
    fork (eval L e env) (fun x => kf (.ret x env)) (fun e => kf (.exc e env)) s := by rw [exec, fork_doing]; rfl
theorem ex_raise (e : Expr) : fork (exec L (.raise e) cur env) kf h s =
    fork (eval L e env) (fun x => kf (.exc (raising L x) env)) (fun e => kf (.exc e env)) s := by rw [exec, fork_doing]; rfl
theorem ex_reraise (e : Exn) : fork (exec L .reraise (some e) env) kf h s = kf (.exc e env) s := by rw [exec]; rfl
theorem ex_del (t : Expr) : fork (exec L (.del t) cur env) kf h s =
    fork (delete L t env) (fun env' => kf (.next env')) (fun e => kf (.exc e env)) s := by rw [exec, fork_doing]; rfl
theorem ex_if (c : Expr) (a b : List Stmt) : fork (exec L (.if c a b) cur env) kf h s =
    fork (eval L c env) (fun x => fork (L.truth x) (fun t s => if t then fork (execs L a cur env) kf h s else fork (execs L b cur env) kf h s)
      (fun e => kf (.exc e env))) (fun e => kf (.exc e env)) s := by
  rw [exec, fork_doing, fork_bind]; congr 1; funext x s; congr 1; funext t s; cases t <;> rfl
theorem ex_while (c : Expr) (a : List Stmt) : fork (exec L (.while c a) cur env) kf h s =
    fork (whileLoop (fun env => do
      let x ← eval L c env
      L.truth x) (fun env => execs L a cur env) L.fuel env) kf h s := by rw [exec]
theorem ex_for (t it : Expr) (a : List Stmt) : fork (exec L (.for t it a) cur env) kf h s =
    fork (eval L it env) (fun x => fork (L.iter x) (fun l => fork (forLoop (assign L t) (fun env => execs L a cur env) l env) kf h)
      (fun e => kf (.exc e env))) (fun e => kf (.exc e env)) s := by
  rw [exec, fork_doing, fork_bind]
theorem ex_fdef (n id : Name) : fork (exec L (.fdef n id) cur env) kf h s = kf (.next (env.put n (.clos id env))) s := by
  rw [exec]; rfl

/-- What a `while` loop makes of the end of its body. -/
def afterIter (c : Env → M A Bool) (b : Env → M A Flow) (n : Nat) : Flow → M A Flow
  | .next e => whileLoop c b n e
  | .cont e => whileLoop c b n e
  | .brk e => pure (.next e)
  | f => pure f
theorem wl_zero (c : Env → M A Bool) (b : Env → M A Flow) : fork (whileLoop c b 0 env) kf h s =
    fork (c env) (fun t s => if t then (.diverge, s) else kf (.next env) s) (fun e => kf (.exc e env)) s := by
  rw [whileLoop, fork_doing]; congr 1; funext t s; cases t <;> rfl
theorem wl_succ (c : Env → M A Bool) (b : Env → M A Flow) (n : Nat) : fork (whileLoop c b (n + 1) env) kf h s =
    fork (c env) (fun t s => if t then fork (b env) (fun f => fork (afterIter c b n f) kf h) h s else kf (.next env) s)
      (fun e => kf (.exc e env)) s := by
  rw [whileLoop, fork_doing]; congr 1; funext t s; cases t
  · rfl
  · simp only [if_true]; rw [fork_bind]; congr 1
theorem ai_next (c : Env → M A Bool) (b : Env → M A Flow) (n : Nat) :
    fork (afterIter c b n (.next env)) kf h s = fork (whileLoop c b n env) kf h s := (rfl)
theorem ai_ret (c : Env → M A Bool) (b : Env → M A Flow) (n : Nat) (x : PV) :
    fork (afterIter c b n (.ret x env)) kf h s = kf (.ret x env) s := (rfl)
theorem ai_exc (c : Env → M A Bool) (b : Env → M A Flow) (n : Nat) (e : Exn) :
    fork (afterIter c b n (.exc e env)) kf h s = kf (.exc e env) s := (rfl)

/-- What a `for` loop makes of the end of its body. -/
def afterItem (t : PV → Env → M A Env) (b : Env → M A Flow) (r : List PV) : Flow → M A Flow
  | .next e => forLoop t b r e
  | .cont e => forLoop t b r e
  | .brk e => pure (.next e)
  | f => pure f
theorem fl_nil (t : PV → Env → M A Env) (b : Env → M A Flow) : fork (forLoop t b [] env) kf h s = kf (.next env) s := by
  rw [forLoop]; rfl
theorem fl_cons (t : PV → Env → M A Env) (b : Env → M A Flow) (x : PV) (r : List PV) : fork (forLoop t b (x :: r) env) kf h s =
    fork (t x env) (fun e => fork (b e) (fun f => fork (afterItem t b r f) kf h) h) (fun e => kf (.exc e env)) s := by
  rw [forLoop, fork_doing]; congr 1; funext t s; rw [fork_bind]; congr 1
theorem im_next (t : PV → Env → M A Env) (b : Env → M A Flow) (r : List PV) :
    fork (afterItem t b r (.next env)) kf h s = fork (forLoop t b r env) kf h s := (rfl)
theorem im_ret (t : PV → Env → M A Env) (b : Env → M A Flow) (r : List PV) (x : PV) :
    fork (afterItem t b r (.ret x env)) kf h s = kf (.ret x env) s := (rfl)
theorem im_exc (t : PV → Env → M A Env) (b : Env → M A Flow) (r : List PV) (e : Exn) :
    fork (afterItem t b r (.exc e env)) kf h s = kf (.exc e env) s := (rfl)

/-- What the handlers or the `else` clause of a `try` statement make of the end of its body. -/
def afterBody (L : Lang A) (hs orelse : List Stmt) (cur : Option Exn) : Flow → M A Flow
  | .exc e env' => handle L hs e cur env'
  | .next env' => execs L orelse cur env'
  | f => pure f

/-- What the `finally` clause makes of the end of a `try` statement. -/
def afterAll (L : Lang A) (final : List Stmt) (cur : Option Exn) (f : Flow) : M A Flow := do
  let g ← execs L final cur f.env
  match g with
  | .next env' => pure (f.withEnv env')
  | g => pure g

theorem ex_try (body hs orelse final : List Stmt) : fork (exec L (.try body hs orelse final) cur env) kf h s =
    fork (execs L body cur env) (fun f => fork (afterBody L hs orelse cur f) (fun f => fork (afterAll L final cur f) kf h) h) h s := by
  rw [exec, fork_bind]; congr 1; funext f s; rw [fork_bind]; rfl

theorem ab_exc (hs orelse : List Stmt) (e : Exn) : fork (afterBody L hs orelse cur (.exc e env)) kf h s =
    fork (handle L hs e cur env) kf h s := (rfl)
theorem ab_next (hs orelse : List Stmt) : fork (afterBody L hs orelse cur (.next env)) kf h s =
    fork (execs L orelse cur env) kf h s := (rfl)
theorem ab_ret (hs orelse : List Stmt) (x : PV) : fork (afterBody L hs orelse cur (.ret x env)) kf h s =
    kf (.ret x env) s := (rfl)
theorem aa_nil (f : Flow) : fork (afterAll L [] cur f) kf h s = kf f s := by
  unfold afterAll
  rw [fork_bind, execs]
  cases f <;> rfl

theorem es_nil : fork (execs L [] cur env) kf h s = kf (.next env) s := by rw [execs]; rfl

/-- What the rest of a block makes of the end of its first statement. -/
def afterStmt (L : Lang A) (r : List Stmt) (cur : Option Exn) : Flow → M A Flow
  | .next env' => execs L r cur env'
  | f => pure f
theorem es_cons (x : Stmt) (r : List Stmt) : fork (execs L (x :: r) cur env) kf h s =
    fork (exec L x cur env) (fun f => fork (afterStmt L r cur f) kf h) h s := by
  rw [execs, fork_bind]; congr 1
theorem as_next (r : List Stmt) : fork (afterStmt L r cur (.next env)) kf h s = fork (execs L r cur env) kf h s := (rfl)
theorem as_ret (r : List Stmt) (x : PV) : fork (afterStmt L r cur (.ret x env)) kf h s = kf (.ret x env) s := (rfl)
theorem as_exc (r : List Stmt) (e : Exn) : fork (afterStmt L r cur (.exc e env)) kf h s = kf (.exc e env) s := (rfl)

theorem ha_nil (e : Exn) : fork (handle L [] e cur env) kf h s = kf (.exc e env) s := by rw [handle]; rfl
theorem ha_any (body r : List Stmt) (e : Exn) : fork (handle L (.handler none none body :: r) e cur env) kf h s =
    fork (execs L body (some e) env) kf h s := by rw [handle]; rfl
theorem ha_class (t : Expr) (body r : List Stmt) (e : Exn) :
    fork (handle L (.handler (some t) none body :: r) e cur env) kf h s =
    fork (eval L t env) (fun c s => if L.catches c e then fork (execs L body (some e) env) kf h s
      else fork (handle L r e cur env) kf h s) h s := by
  rw [handle]
  simp only [fork_bind]
  congr 1
  funext c s
  rw [fork_pure]
  cases L.catches c e <;> rfl
/-- `Env.drop`, not to be evaluated. -/
def Env.less (env : Env) (n : Name) : Env := env.drop n
/-- Go on without a local variable. -/
def dropping (n : Name) (kf : Flow → St A → Res β × St A) (f : Flow) : St A → Res β × St A := kf (f.withEnv (f.env.drop n))
theorem dropping_next (n : Name) : dropping n kf (.next env) s = kf (.next (env.less n)) s := (rfl)
theorem dropping_ret (n : Name) (x : PV) : dropping n kf (.ret x env) s = kf (.ret x (env.less n)) s := (rfl)
theorem dropping_exc (n : Name) (e : Exn) : dropping n kf (.exc e env) s = kf (.exc e (env.less n)) s := (rfl)
theorem ha_as (t : Expr) (n : Name) (body r : List Stmt) (e : Exn) :
    fork (handle L (.handler (some t) (some n) body :: r) e cur env) kf h s =
    fork (eval L t env) (fun c s => if L.catches c e then
        fork (execs L body (some e) (env.put n (.exn e))) (dropping n kf) h s
      else fork (handle L r e cur env) kf h s) h s := by
  rw [handle]
  simp only [fork_bind]
  congr 1
  funext c s
  rw [fork_pure]
  cases L.catches c e
  · rfl
  · simp only [if_true]; rw [fork_bind]; rfl
end exec

attribute [irreducible] Env.less dropping

/-! ## Functions -/

/-- What a call gives when its body ended. -/
def leave (k : PV → St A → Res β × St A) (h : Exn → St A → Res β × St A) : Flow → St A → Res β × St A
  | .ret x _, s => k x s
  | .exc e _, s => h e s
  | .next _, s => k (.v .none) s
  | _, s => (.diverge, s)

theorem runIn_eq (f : Fn) (outer : Env) (args : List PV) (kws : List (Name × PV)) :
    fork (runIn L f outer args kws) k h s =
      fork (bindParams L f f.params args kws outer) (fun env => fork (execs L f.body none env) (leave k h) h) h s := by
  unfold runIn
  rw [fork_bind]
  congr 1
  funext env s
  rw [fork_bind]
  congr 1
  funext r s
  cases r <;> rfl

theorem run_eq (f : Fn) (args : List PV) :
    fork (run L f args) k h s =
      fork (bindParams L f f.params args [] []) (fun env => fork (execs L f.body none env) (leave k h) h) h s :=
  runIn_eq f [] args []

theorem fork_bp_nil (f : Fn) (ps : List (Name × Option Expr)) (n : Name) (d : Option Expr) (x : PV) (xs : List PV)
    (outer : Env) (ke : Env → St A → Res β × St A) :
    fork (bindParams L f ((n, d) :: ps) (x :: xs) [] outer) ke h s =
      fork (bindParams L f ps xs [] (outer.put n x)) ke h s := by
  rw [bindParams]; rfl

/-! ## The tactic -/

theorem leave_ret (x : PV) : leave k h (.ret x env) s = k x s := (rfl)
theorem leave_exc (e : Exn) : leave k h (.exc e env) s = h e s := (rfl)
theorem leave_next : leave k h (.next env) s = k (.v .none) s := (rfl)

theorem lang_glob (X : Ctx A) (o : Opts) : (lang X o).glob = lglob := (rfl)
theorem lang_setGlob (X : Ctx A) (o : Opts) : (lang X o).setGlob = lsetGlob := (rfl)
theorem lang_getattr (X : Ctx A) (o : Opts) : (lang X o).getattr = lgetattr X o := (rfl)
theorem lang_setattr (X : Ctx A) (o : Opts) : (lang X o).setattr = lsetattr X := (rfl)
theorem lang_delattr (X : Ctx A) (o : Opts) : (lang X o).delattr = ldelattr X := (rfl)
theorem lang_getitem (X : Ctx A) (o : Opts) : (lang X o).getitem = lgetitem := (rfl)
theorem lang_setitem (X : Ctx A) (o : Opts) : (lang X o).setitem = lsetitem := (rfl)
theorem lang_delitem (X : Ctx A) (o : Opts) : (lang X o).delitem = ldelitem := (rfl)
theorem lang_method (X : Ctx A) (o : Opts) : (lang X o).method = lmethod X o := (rfl)
theorem lang_call (X : Ctx A) (o : Opts) : (lang X o).call = lcall X o := (rfl)
theorem lang_same (X : Ctx A) (o : Opts) : (lang X o).same = PyC.same := (rfl)
theorem lang_compare (X : Ctx A) (o : Opts) : (lang X o).compare = lcompare X o := (rfl)
theorem lang_bin (X : Ctx A) (o : Opts) : (lang X o).bin = lbin := (rfl)
theorem lang_truth (X : Ctx A) (o : Opts) : (lang X o).truth = ltruth X := (rfl)
theorem lang_fmt (X : Ctx A) (o : Opts) : (lang X o).fmt = fun _ x => pure x := (rfl)
theorem lang_iter (X : Ctx A) (o : Opts) : (lang X o).iter = liter := (rfl)
theorem lang_unpack (X : Ctx A) (o : Opts) : (lang X o).unpack = lunpack := (rfl)
theorem lang_catches (X : Ctx A) (o : Opts) : (lang X o).catches = lcatches := (rfl)
theorem lang_toExn (X : Ctx A) (o : Opts) : (lang X o).toExn = ltoExn := (rfl)
theorem lang_fuel (X : Ctx A) (o : Opts) : (lang X o).fuel = X.fuel := (rfl)
theorem lang_newDict (X : Ctx A) (o : Opts) : (lang X o).newDict = lnewDict := (rfl)
theorem own_role : own.role = .own := (rfl)
theorem user_role : user.role = .user := (rfl)
theorem truthy_bool (W : World A) (b : Bool) : truthy W (.bool b) = b := (rfl)
theorem truthy_none (W : World A) : truthy W .none = false := (rfl)
theorem compare_is (L : Lang A) (x y : PV) : compareWith L .is x y = pure (.v (.bool (L.same x y))) := (rfl)
theorem compare_isNot (L : Lang A) (x y : PV) : compareWith L .isNot x y = pure (.v (.bool (!L.same x y))) := (rfl)
theorem compare_isIn (L : Lang A) (x y : PV) : compareWith L .isIn x y = L.compare .isIn x y := (rfl)
theorem compare_notIn (L : Lang A) (x y : PV) : compareWith L .notIn x y = L.compare .notIn x y := (rfl)
theorem compare_eq (L : Lang A) (x y : PV) : compareWith L .eq x y = L.compare .eq x y := (rfl)
theorem compare_ne (L : Lang A) (x y : PV) : compareWith L .ne x y = L.compare .ne x y := (rfl)
theorem compare_lt (L : Lang A) (x y : PV) : compareWith L .lt x y = L.compare .lt x y := (rfl)
theorem compare_le (L : Lang A) (x y : PV) : compareWith L .le x y = L.compare .le x y := (rfl)
theorem compare_gt (L : Lang A) (x y : PV) : compareWith L .gt x y = L.compare .gt x y := (rfl)
theorem compare_ge (L : Lang A) (x y : PV) : compareWith L .ge x y = L.compare .ge x y := (rfl)
theorem same_v (a b : Val) : PyC.same (.v a) (.v b) = decide (a = b) := (rfl)
theorem fork_bp_default (f : Fn) (ps : List (Name × Option Expr)) (n : Name) (e : Expr)
    (outer : Env) (ke : Env → St A → Res β × St A) :
    fork (bindParams L f ((n, some e) :: ps) [] [] outer) ke h s =
      fork (eval L e []) (fun x => fork (bindParams L f ps [] [] (outer.put n x)) ke h) h s := by
  rw [bindParams]; simp only [takeKw]; rw [fork_bind]

/-- The arguments that no parameter takes. -/
def bindRest (star dstar : Option Name) (xs : List PV) (kws : List (Name × PV)) (env : Env) : M A Env := do
  let env ← (match star with
    | some n => pure (env.put n (.tuple xs))
    | none => if xs.isEmpty then pure env else M.throw .typeError)
  match dstar with
  | some n => pure (env.put n (.kwds kws))
  | none => if kws.isEmpty then pure env else M.throw .typeError
theorem bindParams_nil (L : Lang A) (f : Fn) (xs : List PV) (kws : List (Name × PV)) (env : Env) :
    bindParams L f [] xs kws env = bindRest f.star f.dstar xs kws env := by
  rw [bindParams]; rfl
theorem bindRest_none (env : Env) : (bindRest none none [] [] env : M A Env) = pure env := (rfl)
theorem bindRest_star (n : Name) (xs : List PV) (env : Env) :
    (bindRest (some n) none xs [] env : M A Env) = pure (env.put n (.tuple xs)) := (rfl)
theorem bindRest_dstar (n : Name) (kws : List (Name × PV)) (env : Env) :
    (bindRest none (some n) [] kws env : M A Env) = pure (env.put n (.kwds kws)) := (rfl)
theorem bindRest_both (n m : Name) (xs : List PV) (kws : List (Name × PV)) (env : Env) :
    (bindRest (some n) (some m) xs kws env : M A Env) = pure ((env.put n (.tuple xs)).put m (.kwds kws)) := (rfl)

/-! ## The host -/

section host
variable (X : Ctx A) (o : Opts)

theorem glo_thread_local :
    (lglob "thread_local" : M A PV) = pure (.sym "thread_local") := (rfl)
theorem glo__checkers :
    (lglob "_checkers" : M A PV) = pure (.sym "_checkers") := (rfl)
theorem glo__available_by_default :
    (lglob "_available_by_default" : M A PV) = pure (.sym "_available_by_default") := (rfl)
theorem glo_Checker :
    (lglob "Checker" : M A PV) = pure (.sym "Checker") := (rfl)
theorem glo_Proxy :
    (lglob "Proxy" : M A PV) = pure (.sym "Proxy") := (rfl)
theorem glo_ProxyPy :
    (lglob "ProxyPy" : M A PV) = pure (.sym "ProxyPy") := (rfl)
theorem glo_PyProxyBase :
    (lglob "PyProxyBase" : M A PV) = pure (.sym "PyProxyBase") := (rfl)
theorem glo_CombinedChecker :
    (lglob "CombinedChecker" : M A PV) = pure (.sym "CombinedChecker") := (rfl)
theorem glo_TracebackSupplement :
    (lglob "TracebackSupplement" : M A PV) = pure (.sym "TracebackSupplement") := (rfl)
theorem glo_DEFINABLE_TYPES :
    (lglob "DEFINABLE_TYPES" : M A PV) = pure (.sym "DEFINABLE_TYPES") := (rfl)
theorem glo_dict :
    (lglob "dict" : M A PV) = pure (.sym "dict") := (rfl)
theorem glo_sys :
    (lglob "sys" : M A PV) = pure (.sym "sys") := (rfl)
theorem glo_functools :
    (lglob "functools" : M A PV) = pure (.sym "functools") := (rfl)
theorem glo_isinstance :
    (lglob "isinstance" : M A PV) = pure (.sym "isinstance") := (rfl)
theorem glo__builtin_isinstance :
    (lglob "_builtin_isinstance" : M A PV) = pure (.sym "_builtin_isinstance") := (rfl)
theorem glo_hasattr :
    (lglob "hasattr" : M A PV) = pure (.sym "hasattr") := (rfl)
theorem glo_getattr :
    (lglob "getattr" : M A PV) = pure (.sym "getattr") := (rfl)
theorem glo_setattr :
    (lglob "setattr" : M A PV) = pure (.sym "setattr") := (rfl)
theorem glo_delattr :
    (lglob "delattr" : M A PV) = pure (.sym "delattr") := (rfl)
theorem glo_type :
    (lglob "type" : M A PV) = pure (.sym "type") := (rfl)
theorem glo_hash :
    (lglob "hash" : M A PV) = pure (.sym "hash") := (rfl)
theorem glo_bool :
    (lglob "bool" : M A PV) = pure (.sym "bool") := (rfl)
theorem glo_super :
    (lglob "super" : M A PV) = pure (.sym "super") := (rfl)
theorem glo_selectChecker :
    (lglob "selectChecker" : M A PV) = pure (.sym "selectChecker") := (rfl)
theorem glo_getChecker :
    (lglob "getChecker" : M A PV) = pure (.sym "getChecker") := (rfl)
theorem glo_removeSecurityProxy :
    (lglob "removeSecurityProxy" : M A PV) = pure (.sym "removeSecurityProxy") := (rfl)
theorem glo_getProxiedObject :
    (lglob "getProxiedObject" : M A PV) = pure (.sym "getProxiedObject") := (rfl)
theorem glo_ProxyFactory :
    (lglob "ProxyFactory" : M A PV) = pure (.sym "ProxyFactory") := (rfl)
theorem glo_NamesChecker :
    (lglob "NamesChecker" : M A PV) = pure (.sym "NamesChecker") := (rfl)
theorem glo__check_name :
    (lglob "_check_name" : M A PV) = pure (.sym "_check_name") := (rfl)
theorem glo__fmt_address :
    (lglob "_fmt_address" : M A PV) = pure (.sym "_fmt_address") := (rfl)
theorem glo_queryInteraction :
    (lglob "queryInteraction" : M A PV) = pure (.sym "queryInteraction") := (rfl)
theorem glo_getSecurityPolicy :
    (lglob "getSecurityPolicy" : M A PV) = pure (.sym "getSecurityPolicy") := (rfl)
theorem glo_Unauthorized :
    (lglob "Unauthorized" : M A PV) = pure (.sym "Unauthorized") := (rfl)
theorem glo_ForbiddenAttribute :
    (lglob "ForbiddenAttribute" : M A PV) = pure (.sym "ForbiddenAttribute") := (rfl)
theorem glo_AttributeError :
    (lglob "AttributeError" : M A PV) = pure (.sym "AttributeError") := (rfl)
theorem glo_TypeError :
    (lglob "TypeError" : M A PV) = pure (.sym "TypeError") := (rfl)
theorem glo_ValueError :
    (lglob "ValueError" : M A PV) = pure (.sym "ValueError") := (rfl)
theorem glo_DuplicationError :
    (lglob "DuplicationError" : M A PV) = pure (.sym "DuplicationError") := (rfl)
theorem glo_NoInteraction :
    (lglob "NoInteraction" : M A PV) = pure (.sym "NoInteraction") := (rfl)
theorem glo_ExistingInteraction :
    (lglob "ExistingInteraction" : M A PV) = pure (.sym "ExistingInteraction") := (rfl)
theorem glo_CheckerPublic :
    (lglob "CheckerPublic" : M A PV) = pure (.v publicV) := (rfl)
theorem glo_NoProxy :
    (lglob "NoProxy" : M A PV) = pure (.v .noProxy) := (rfl)
theorem glo__defaultChecker :
    (lglob "_defaultChecker" : M A PV) = pure (.v defaultChecker) := (rfl)
theorem glo_NotImplemented :
    (lglob "NotImplemented" : M A PV) = pure (.v .notImpl) := (rfl)
theorem glo__getChecker :
    (lglob "_getChecker" : M A PV) = pure (.bound (.sym "_checkers") "get") := (rfl)
theorem glo_Paranoid :
    (lglob "ParanoidSecurityPolicy" : M A PV) = pure (.policy .paranoid) := (rfl)
theorem glo_system_user :
    (lglob "system_user" : M A PV) = pure (.user .system) := (rfl)
theorem glo__defaultPolicy :
    (lglob "_defaultPolicy" : M A PV) = (do
    let s ← M.get
    pure (.policy s.policy)) := (rfl)
theorem setGlob__defaultPolicy (p : Policy) :
    (lsetGlob "_defaultPolicy" (.policy p) : M A Unit) = M.modify fun s => { s with policy := p } := (rfl)
theorem get_interaction :
    lgetattr X o (.sym "thread_local") "interaction" = (do
    let s ← M.get
    slot "interaction" (s.threads X.tid).interaction) := (rfl)
theorem get_previous :
    lgetattr X o (.sym "thread_local") "previous_interaction" = (do
    let s ← M.get
    slot "previous_interaction" (s.threads X.tid).previous) := (rfl)
theorem slot_some (n : Name) (x : Val) :
    (slot n (some x) : M A PV) = pure (.v x) := (rfl)
theorem slot_none (n : Name) :
    (slot n none : M A PV) = M.throw (.attributeError n) := (rfl)
theorem get_getPermissions (x : Val) :
    lgetattr X o (.v x) "get_permissions" = readDict x := (rfl)
theorem get_setPermissions (x : Val) :
    lgetattr X o (.v x) "set_permissions" = writeDict x := (rfl)
theorem readDict_checker (i g st : Nat) :
    (readDict (.checker i g st) : M A PV) = pure (.dict g) := (rfl)
theorem readDict_combined (i g st : Nat) (c : Val) :
    (readDict (.combined i g st c) : M A PV) = pure (.dict g) := (rfl)
theorem writeDict_checker (i g st : Nat) :
    (writeDict (.checker i g st) : M A PV) = pure (.dict st) := (rfl)
theorem writeDict_combined (i g st : Nat) (c : Val) :
    (writeDict (.combined i g st c) : M A PV) = pure (.dict st) := (rfl)
theorem get_checker2 (i g st : Nat) (c : Val) :
    lgetattr X o (.v (.combined i g st c)) "_checker2" = pure (.v c) := (rfl)
theorem get_participations (i : Nat) :
    lgetattr X o (.v (.ix i)) "participations" = pure (.parts i) := (rfl)
theorem get___length_hint__ (x : Val) :
    lgetattr X o (.v x) "__length_hint__" = val (act X o.role (.getattr x "__length_hint__")) := (rfl)
theorem get___class__ (x : Val) :
    lgetattr X o (.v x) "__class__" = val (act X o.role (.getattr x "__class__")) := (rfl)
theorem get___module__ (x : Val) :
    lgetattr X o (.v x) "__module__" = val (act X o.role (.getattr x "__module__")) := (rfl)
theorem get___name__ (x : Val) :
    lgetattr X o (.v x) "__name__" = val (act X o.role (.getattr x "__name__")) := (rfl)
theorem get_baseName (m : Name) :
    lgetattr X o (.base m) "__name__" = pure (.v (.str 0 m)) := (rfl)
theorem get_base (m : Name) :
    lgetattr X o (.sym "PyProxyBase") m = pure (.base m) := (rfl)
theorem get_partInteraction (p : Nat) :
    lgetattr X o (.part p) "interaction" = (do
    let s ← M.get
    pure (.v (s.parts p).interaction)) := (rfl)
theorem get_principal (p : Nat) :
    lgetattr X o (.part p) "principal" = (do
    let s ← M.get
    pure (.user (s.parts p).principal)) := (rfl)
theorem get_bound (a : PV) (b n : Name) :
    lgetattr X o (.bound a b) n = pure (.bound (.bound a b) n) := (rfl)
theorem get_frame (n : Name) :
    lgetattr X o (.sym "frame") n = pure (.bound (.sym "frame") n) := (rfl)
theorem set_interaction (x : Val) :
    lsetattr X (.sym "thread_local") "interaction" (.v x) = setSlots X.tid fun sl => { sl with interaction := some x } := (rfl)
theorem set_previous (x : Val) :
    lsetattr X (.sym "thread_local") "previous_interaction" (.v x) = setSlots X.tid fun sl => { sl with previous := some x } := (rfl)
theorem set_proxy (i : Nat) (w c : Val) (n : Name) (x : Val) :
    lsetattr X (.v (.proxy i w c)) n (.v x) = (do
    let _ ← setattrPy X i w c n x
    pure ()) := (rfl)
theorem set_partInteraction (p : Nat) (x : Val) :
    lsetattr X (.part p) "interaction" (.v x) = M.modify fun s => { s with parts := fun q => if q = p then { s.parts p with interaction := x } else s.parts q } := (rfl)
theorem del_interaction :
    ldelattr X (.sym "thread_local") "interaction" = (do
    let s ← M.get
    if (s.threads X.tid).interaction.isSome then setSlots X.tid fun sl => { sl with interaction := none }
    else M.throw (.attributeError "interaction")) := (rfl)
theorem del_previous :
    ldelattr X (.sym "thread_local") "previous_interaction" = (do
    let s ← M.get
    if (s.threads X.tid).previous.isSome then setSlots X.tid fun sl => { sl with previous := none }
    else M.throw (.attributeError "previous_interaction")) := (rfl)
theorem do_get1 (d a : Nat) (n : Name) (kw : List (Name × PV)) :
    lmethod X o (.dict d) "get" [.v (.str a n)] kw = (do
    let s ← M.get
    pure (.v (orElse ((s.dicts d).get? n) .none))) := (rfl)
theorem do_get2 (d a : Nat) (n : Name) (x : Val) (kw : List (Name × PV)) :
    lmethod X o (.dict d) "get" [.v (.str a n), .v x] kw = (do
    let s ← M.get
    pure (.v (orElse ((s.dicts d).get? n) x))) := (rfl)
theorem do_check (x y : Val) (a : Nat) (n : Name) (kw : List (Name × PV)) :
    lmethod X o (.v x) "check" [.v y, .v (.str a n)] kw = unit (chkCheck X (hasattrX X) .check x y n) := (rfl)
theorem do_check_getattr (x y : Val) (a : Nat) (n : Name) (kw : List (Name × PV)) :
    lmethod X o (.v x) "check_getattr" [.v y, .v (.str a n)] kw = unit (chkCheck X (hasattrX X) .getattr x y n) := (rfl)
theorem do_check_setattr (x y : Val) (a : Nat) (n : Name) (kw : List (Name × PV)) :
    lmethod X o (.v x) "check_setattr" [.v y, .v (.str a n)] kw = unit (chkCheck X (hasattrX X) .setattr x y n) := (rfl)
theorem do_checkPermission (x p y : Val) (kw : List (Name × PV)) :
    lmethod X o (.v x) "checkPermission" [.v p, .v y] kw = val (ixCheckPermission X x p y) := (rfl)
theorem do_proxy (x y : Val) (kw : List (Name × PV)) :
    lmethod X o (.v x) "proxy" [.v y] kw = val (chkProxy X x y) := (rfl)
theorem do_add (i p : Nat) (kw : List (Name × PV)) :
    lmethod X o (.v (.ix i)) "add" [.part p] kw = unit (ixAdd i p) := (rfl)
theorem do_format (b : Nat) (x y z : PV) (kw : List (Name × PV)) :
    lmethod X o (.v (.str b "<security proxied {}.{} instance at {}>")) "format" [x, y, z] kw = (do
    let x ← textOf x
    let y ← textOf y
    let z ← textOf z
    pure (.v (.str 0 ("<security proxied " ++ x ++ "." ++ y ++ " instance at " ++ z ++ ">")))) := (rfl)
theorem do_superGet (i : Nat) (w c : Val) (m : Name) (l : List PV) (kw : List (Name × PV)) :
    lmethod X o (.sup (.v (.proxy i w c))) m l kw = supMethod X i w c m l := (rfl)
theorem sup_wrapped (i : Nat) (w c : Val) (a : Nat) :
    supMethod X i w c "__getattribute__" [.v (.str a "_wrapped")] = (do
    let s ← M.get
    pure (.v (proxyWrapped X s i w))) := (rfl)
theorem sup_checker (i : Nat) (w c : Val) (a : Nat) :
    supMethod X i w c "__getattribute__" [.v (.str a "_checker")] = (do
    let s ← M.get
    pure (.v (proxyChecker X s i c))) := (rfl)
theorem do_append (i p : Nat) (kw : List (Name × PV)) :
    lmethod X o (.parts i) "append" [.part p] kw = unit (M.modify fun s => { s with ixs := fun j => if j = i then { s.ixs i with participations := (s.ixs i).participations ++ [p] } else s.ixs j }) := (rfl)
theorem do_remove (i p : Nat) (kw : List (Name × PV)) :
    lmethod X o (.parts i) "remove" [.part p] kw = (do
    let s ← M.get
    if p ∉ (s.ixs i).participations then M.throw .valueError
    else unit (M.modify fun s => { s with ixs := fun j => if j = i then { s.ixs i with participations := (s.ixs i).participations.erase p } else s.ixs j })) := (rfl)
theorem do_baseCheck (i g st : Nat) (c y : Val) (a : Nat) (n : Name) (kw : List (Name × PV)) :
    lmethod X o (.sym "Checker") "check" [.v (.combined i g st c), .v y, .v (.str a n)] kw = unit (plainCheck X (hasattrX X) g y n) := (rfl)
theorem do_baseSetattr (i g st : Nat) (c y : Val) (a : Nat) (n : Name) (kw : List (Name × PV)) :
    lmethod X o (.sym "Checker") "check_setattr" [.v (.combined i g st c), .v y, .v (.str a n)] kw = unit (plainSetattr X st y n) := (rfl)
theorem do_regGet1 (t : Val) (kw : List (Name × PV)) :
    lmethod X o (.sym "_checkers") "get" [.v t] kw = regGet t .none := (rfl)
theorem do_regGet2 (t d : Val) (kw : List (Name × PV)) :
    lmethod X o (.sym "_checkers") "get" [.v t, .v d] kw = regGet t d := (rfl)
theorem do_getframe (l : List PV) (kw : List (Name × PV)) :
    lmethod X o (.sym "sys") "_getframe" l kw = pure (.sym "frame") := (rfl)
theorem do_updateWrapper (f g : PV) (kw : List (Name × PV)) :
    lmethod X o (.sym "functools") "update_wrapper" [f, g] kw = pure f := (rfl)
theorem do_locals (l : List PV) (kw : List (Name × PV)) :
    lmethod X o (.bound (.sym "frame") "f_locals") "get" l kw = pure o.caller := (rfl)
theorem call_isinstance_Proxy (x : Val) (kw : List (Name × PV)) :
    lcall X o (.sym "isinstance") [.v x, .sym "Proxy"] kw = pure (.v (.bool x.isProxy)) := (rfl)
theorem call_isinstance_ProxyPy (x : Val) (kw : List (Name × PV)) :
    lcall X o (.sym "isinstance") [.v x, .sym "ProxyPy"] kw = pure (.v (.bool x.isProxy)) := (rfl)
theorem call__builtin_isinstance_Proxy (x : Val) (kw : List (Name × PV)) :
    lcall X o (.sym "_builtin_isinstance") [.v x, .sym "Proxy"] kw = pure (.v (.bool x.isProxy)) := (rfl)
theorem call__builtin_isinstance_ProxyPy (x : Val) (kw : List (Name × PV)) :
    lcall X o (.sym "_builtin_isinstance") [.v x, .sym "ProxyPy"] kw = pure (.v (.bool x.isProxy)) := (rfl)
theorem call_isinstance_Checker (x : Val) (kw : List (Name × PV)) :
    lcall X o (.sym "isinstance") [.v x, .sym "Checker"] kw = pure (.v (.bool x.isChecker)) := (rfl)
theorem call_isinstance_types (x : Val) (kw : List (Name × PV)) :
    lcall X o (.sym "isinstance") [.v x, .sym "DEFINABLE_TYPES"] kw = pure (.v (.bool (definable x).isSome)) := (rfl)
theorem call_getSC (x : Val) (a : Nat) (kw : List (Name × PV)) :
    lcall X o (.sym "getattr") [.v x, .v (.str a "__Security_checker__"), .v .none] kw = val (orNone (getSC X x)) := (rfl)
theorem call_getIx (a : Nat) (kw : List (Name × PV)) :
    lcall X o (.sym "getattr") [.sym "thread_local", .v (.str a "interaction"), .v .none] kw = (do
    let s ← M.get
    pure (.v ((s.threads X.tid).interaction.getD .none))) := (rfl)
theorem call_getattr2 (x : Val) (a : Nat) (n : Name) (kw : List (Name × PV)) :
    lcall X o (.sym "getattr") [.v x, .v (.str a n)] kw = val (act X o.role (.getattr x n)) := (rfl)
theorem call_hasattr (x : Val) (a : Nat) (n : Name) (kw : List (Name × PV)) :
    lcall X o (.sym "hasattr") [.v x, .v (.str a n)] kw = truthOf (hasattrX X x n) := (rfl)
theorem call_setattr (x y : Val) (a : Nat) (n : Name) (kw : List (Name × PV)) :
    lcall X o (.sym "setattr") [.v x, .v (.str a n), .v y] kw = (do
    let _ ← act X o.role (.setattr x n y)
    pure (.v .none)) := (rfl)
theorem call_delattr (x : Val) (a : Nat) (n : Name) (kw : List (Name × PV)) :
    lcall X o (.sym "delattr") [.v x, .v (.str a n)] kw = (do
    let _ ← act X o.role (.delattr x n)
    pure (.v .none)) := (rfl)
theorem call_hash (x : Val) (kw : List (Name × PV)) :
    lcall X o (.sym "hash") [.v x] kw = val (do
    let r ← act X o.role (.special "__hash__" x [])
    asInt r) := (rfl)
theorem call_bool (x : Val) (kw : List (Name × PV)) :
    lcall X o (.sym "bool") [.v x] kw = val (do
    let r ← act X o.role (.special "__bool__" x [])
    pure (.bool (truthy X.W r))) := (rfl)
theorem call_type (x : Val) (kw : List (Name × PV)) :
    lcall X o (.sym "type") [.v x] kw = pure (.v (.type (typeOf X.W x))) := (rfl)
theorem call_super (c x : PV) (kw : List (Name × PV)) :
    lcall X o (.sym "super") [c, x] kw = pure (.sup x) := (rfl)
theorem call_select (x : Val) (kw : List (Name × PV)) :
    lcall X o (.sym "selectChecker") [.v x] kw = val (selectChecker X x) := (rfl)
theorem call_getChecker (x : Val) (kw : List (Name × PV)) :
    lcall X o (.sym "getChecker") [.v x] kw = val (getChecker X x) := (rfl)
theorem call_ProxyFactory (x : Val) (kw : List (Name × PV)) :
    lcall X o (.sym "ProxyFactory") [.v x] kw = val (proxyFactory X x .none) := (rfl)
theorem call_Proxy (x c : Val) (kw : List (Name × PV)) :
    lcall X o (.sym "Proxy") [.v x, .v c] kw = val (newProxy x c) := (rfl)
theorem call_ProxyPy (x c : Val) (kw : List (Name × PV)) :
    lcall X o (.sym "ProxyPy") [.v x, .v c] kw = val (newProxy x c) := (rfl)
theorem call_checkName (m : Name) (kw : List (Name × PV)) :
    lcall X o (.sym "_check_name") [.base m] kw = pure (.clos "_check_name._wrapper" [("name", .v (.str 0 m)), ("wrap_result", .v (.bool true)), ("meth", .base m)]) := (rfl)
theorem call_fmtAddress (x : Val) (kw : List (Name × PV)) :
    lcall X o (.sym "_fmt_address") [.v x] kw = pure (.v (.str 0 (X.W.addr x))) := (rfl)
theorem call_query  (kw : List (Name × PV)) :
    lcall X o (.sym "queryInteraction") [] kw = val (queryInteraction X) := (rfl)
theorem call_getPolicy  (kw : List (Name × PV)) :
    lcall X o (.sym "getSecurityPolicy") [] kw = (do
    let p ← getSecurityPolicy
    pure (.policy p)) := (rfl)
theorem call_remove (x : Val) (kw : List (Name × PV)) :
    lcall X o (.sym "removeSecurityProxy") [.v x] kw = (do
    let s ← M.get
    pure (.v (removeProxy X s x))) := (rfl)
theorem call_combined (x y : Val) (kw : List (Name × PV)) :
    lcall X o (.sym "CombinedChecker") [.v x, .v y] kw = val (newCombined x y) := (rfl)
theorem call_Unauthorized (x p : Val) (a : Nat) (n : Name) (kw : List (Name × PV)) :
    lcall X o (.sym "Unauthorized") [.v x, .v (.str a n), .v p] kw = pure (.exn (.unauthorized x n p)) := (rfl)
theorem call_Forbidden (x : Val) (a : Nat) (n : Name) (kw : List (Name × PV)) :
    lcall X o (.sym "ForbiddenAttribute") [.v (.str a n), .v x] kw = pure (.exn (.forbidden n x)) := (rfl)
theorem call_AttributeError (a : Nat) (n : Name) (kw : List (Name × PV)) :
    lcall X o (.sym "AttributeError") [.v (.str a n)] kw = pure (.exn (.attributeError n)) := (rfl)
theorem call_AttributeError0  (kw : List (Name × PV)) :
    lcall X o (.sym "AttributeError") [] kw = pure (.exn (.attributeError "")) := (rfl)
theorem call_TypeError (x : PV) (kw : List (Name × PV)) :
    lcall X o (.sym "TypeError") [x] kw = pure (.exn .typeError) := (rfl)
theorem call_ValueError (x : PV) (kw : List (Name × PV)) :
    lcall X o (.sym "ValueError") [x] kw = pure (.exn .valueError) := (rfl)
theorem call_Existing (x : PV) (kw : List (Name × PV)) :
    lcall X o (.sym "ExistingInteraction") [x] kw = pure (.exn .existingInteraction) := (rfl)
theorem call_DuplicationType (t : String) (kw : List (Name × PV)) :
    lcall X o (.sym "DuplicationError") [.v (.type t)] kw = pure (.exn (.duplication (.type t))) := (rfl)
theorem call_DuplicationModule (t : String) (kw : List (Name × PV)) :
    lcall X o (.sym "DuplicationError") [.v (.module t)] kw = pure (.exn (.duplication (.module t))) := (rfl)
theorem call_DuplicationName (a : Nat) (n : Name) (kw : List (Name × PV)) :
    lcall X o (.sym "DuplicationError") [.v (.str a n)] kw = pure (.exn (.duplicationName n)) := (rfl)
theorem call_getChecker' (t d : Val) (kw : List (Name × PV)) :
    lcall X o (.bound (.sym "_checkers") "get") [.v t, .v d] kw = regGet t d := (rfl)
theorem call_base (m : Name) (x : Val) (l : List PV) (kw : List (Name × PV)) :
    lcall X o (.base m) (.v x :: l) kw = callBaseWith X m x (vals l) := (rfl)
theorem call_clos (env : List (Name × PV)) (l : List PV) (kw : List (Name × PV)) :
    lcall X o (.clos "_check_name._wrapper" env) l kw = callChecked X env l := (rfl)
theorem call_checked (n b : PV) (m : Name) (i : Nat) (w c : Val) :
    callChecked X [("name", n), ("wrap_result", b), ("meth", .base m)] [.v (.proxy i w c)] =
      val (checkNamePy X i w c m (fun w => .special m w [])) := (rfl)
theorem catch_Unauthorized (e : Exn) :
    lcatches (.sym "Unauthorized") e = e.isUnauthorized := (rfl)
theorem catch_ForbiddenAttribute (e : Exn) :
    lcatches (.sym "ForbiddenAttribute") e = e.isForbidden := (rfl)
theorem catch_AttributeError (e : Exn) :
    lcatches (.sym "AttributeError") e = e.isAttr := (rfl)
theorem catch_TypeError (e : Exn) :
    lcatches (.sym "TypeError") e = decide (e = .typeError) := (rfl)
theorem raise_exn (e : Exn) :
    ltoExn (.exn e) = some e := (rfl)
theorem raise_NoInteraction :
    ltoExn (.sym "NoInteraction") = some .noInteraction := (rfl)
theorem among_nil (n : Name) : amongNames n [] = false := (rfl)
theorem among_cons (n t : Name) (a : Nat) (l : List PV) : amongNames n (.v (.str a t) :: l) = (decide (n = t) || amongNames n l) := (rfl)
theorem in_tuple (n : Name) (a : Nat) (l : List PV) :
    lcompare X o .isIn (.v (.str a n)) (.tuple l) = pure (.v (.bool (amongNames n l))) := (rfl)
theorem notIn_tuple (n : Name) (a : Nat) (l : List PV) :
    lcompare X o .notIn (.v (.str a n)) (.tuple l) = pure (.v (.bool (!amongNames n l))) := (rfl)
theorem in_available (n : Name) (a : Nat) :
    lcompare X o .isIn (.v (.str a n)) (.sym "_available_by_default") = (do
    let s ← M.get
    pure (.v (.bool (decide (n ∈ s.avail))))) := (rfl)
theorem in_checkersT (t : String) :
    lcompare X o .isIn (.v (.type t)) (.sym "_checkers") = (do
    let s ← M.get
    pure (.v (.bool (s.reg.mem (.ty t))))) := (rfl)
theorem in_checkersM (t : String) :
    lcompare X o .isIn (.v (.module t)) (.sym "_checkers") = (do
    let s ← M.get
    pure (.v (.bool (s.reg.mem (.mod t))))) := (rfl)
theorem eq_own (a b : Nat) (x y : String) :
    lcompare X own .eq (.v (.str a x)) (.v (.str b y)) = pure (.v (.bool (decide (x = y)))) := (rfl)
theorem ne_own (a b : Nat) (x y : String) :
    lcompare X own .ne (.v (.str a x)) (.v (.str b y)) = pure (.v (.bool (!decide (x = y)))) := (rfl)
theorem eq_user (a b : Nat) (x y : String) :
    lcompare X user .eq (.v (.str a x)) (.v (.str b y)) = pure (.v (.bool (decide (x = y)))) := (rfl)
theorem ne_user (a b : Nat) (x y : String) :
    lcompare X user .ne (.v (.str a x)) (.v (.str b y)) = pure (.v (.bool (!decide (x = y)))) := (rfl)
theorem eq_raw (p : PV) (x y : Val) : lcompare X ⟨.raw, p⟩ .eq (.v x) (.v y) = val (perform X (.compare CmpName.eq.op x y)) := (rfl)
theorem ne_raw (p : PV) (x y : Val) : lcompare X ⟨.raw, p⟩ .ne (.v x) (.v y) = val (perform X (.compare CmpName.ne.op x y)) := (rfl)
theorem lt_raw (x y : Val) : lcompare X o .lt (.v x) (.v y) = val (perform X (.compare CmpName.lt.op x y)) := (rfl)
theorem le_raw (x y : Val) : lcompare X o .le (.v x) (.v y) = val (perform X (.compare CmpName.le.op x y)) := (rfl)
theorem gt_raw (x y : Val) : lcompare X o .gt (.v x) (.v y) = val (perform X (.compare CmpName.gt.op x y)) := (rfl)
theorem ge_raw (x y : Val) : lcompare X o .ge (.v x) (.v y) = val (perform X (.compare CmpName.ge.op x y)) := (rfl)
theorem eq_userAt (p : PV) (a b : Nat) (x y : String) :
    lcompare X ⟨.user, p⟩ .eq (.v (.str a x)) (.v (.str b y)) = pure (.v (.bool (decide (x = y)))) := (rfl)
theorem act_own (op : RawOp) : act X .own op = probe X op := (rfl)
theorem act_user (op : RawOp) : act X .user op = perform X op := (rfl)
theorem vals_map (l : List Val) : vals (l.map PV.v) = some l := by
  induction l with
  | nil => rfl
  | cons x l ih => rw [List.map_cons, vals, ih]; rfl
theorem call_user (p : PV) (f : Val) (l : List Val) (kw : List (Name × PV)) :
    lcall X ⟨.user, p⟩ (.v f) (l.map PV.v) kw = val (perform X (.call f l)) := by
  rw [lcall, vals_map]; rfl
theorem call_user0 (p : PV) (f : Val) (kw : List (Name × PV)) :
    lcall X ⟨.user, p⟩ (.v f) [] kw = val (perform X (.call f [])) := (rfl)
theorem call_user1 (p : PV) (f x : Val) (kw : List (Name × PV)) :
    lcall X ⟨.user, p⟩ (.v f) [.v x] kw = val (perform X (.call f [x])) := (rfl)
theorem call_inplace (p : PV) (x : Val) (a : Nat) (b : InName) (kw : List (Name × PV)) :
    lcall X ⟨.user, p⟩ (.sym "getattr") [.v x, .v (.str a b.op), .v .none] kw = val (getattrOrNone X x b.op) := by cases b <;> rfl
theorem cut_inplace (a : Nat) (b : InName) :
    (lgetitem (.v (.str a b.op)) (.slice (.v (.int 3)) (.v (.int (-2)))) : M A PV) = pure (.v (.str 0 (cut b.op 3 2))) := (rfl)
theorem mod_name (a b : Nat) (n : String) : (lbin "%" (.v (.str a "__%s__")) (.v (.str b n)) : M A PV) =
    pure (.v (.str 0 ("__" ++ n ++ "__"))) := (rfl)
theorem plain_name (b : InName) : "__" ++ cut b.op 3 2 ++ "__" = b.plain := by cases b <;> decide
theorem sup_setWrapped (i : Nat) (w c : Val) (a : Nat) (x : Val) :
    supMethod X i w c "__setattr__" [.v (.str a "_wrapped"), .v x] = (do
    M.modify fun s => { s with ovW := fun k => if k = i then some x else s.ovW k }
    pure (.v .none)) := (rfl)
theorem sup_setChecker (i : Nat) (w c : Val) (a : Nat) (x : Val) :
    supMethod X i w c "__setattr__" [.v (.str a "_checker"), .v x] = (do
    M.modify fun s => { s with ovC := fun k => if k = i then some x else s.ovC k }
    pure (.v .none)) := (rfl)
theorem sup_other (i : Nat) (w c : Val) (a : Nat) (n : Name) (h1 : n ≠ "_wrapped") (h2 : n ≠ "_checker") :
    supMethod X i w c "__getattribute__" [.v (.str a n)] = (do
    let s ← M.get
    val (perform X (.baseGetattr (proxyWrapped X s i w) n))) := by
  unfold supMethod
  simp only [if_true, if_neg h1, if_neg h2]
theorem truth_v (x : Val) :
    ltruth X (.v x) = pure (truthy X.W x) := (rfl)
theorem truth_dict (d : Nat) :
    ltruth X (.dict d) = (do
    let s ← M.get
    pure (!(s.dicts d).isEmpty)) := (rfl)
theorem truth_list (l : List PV) :
    ltruth X (.list l) = pure (!l.isEmpty) := (rfl)
theorem iter_tuple (l : List PV) :
    (liter (.tuple l) : M A (List PV)) = pure l := (rfl)
theorem iter_parts (i : Nat) :
    (liter (.parts i) : M A (List PV)) = (do
    let s ← M.get
    pure ((s.ixs i).participations.map fun p => .part p)) := (rfl)
theorem unpack_tuple (l : List PV) :
    lunpack (.tuple l) = some l := (rfl)
theorem text_str (a : Nat) (t : String) :
    (textOf (.v (.str a t)) : M A String) = pure t := (rfl)
theorem name_str (a : Nat) (t : String) : (asName (.str a t) : M A String) = pure t := (rfl)
theorem text_v (x : Val) :
    (textOf (.v x) : M A String) = asName x := (rfl)
theorem same_user (p q : Principal) :
    PyC.same (.user p) (.user q) = decide (p = q) := (rfl)
theorem raising_eq (x : PV) :
    raising (lang X o) x = (ltoExn x).getD .typeError := by unfold raising; rw [lang_toExn]; cases ltoExn x <;> rfl
theorem assign_loc (L : Lang A) (n : Name) (x : PV) (env : Env) :
    assign L (.loc n) x env = pure (env.put n x) := (rfl)
theorem assign_glo (L : Lang A) (n : Name) (x : PV) (env : Env) :
    assign L (.glo n) x env = (do
    L.setGlob n x
    pure env) := (rfl)
theorem assign_attr (L : Lang A) (e : Expr) (n : Name) (x : PV) (env : Env) :
    assign L (.attr e n) x env = (do
    let o ← eval L e env
    L.setattr o n x
    pure env) := (rfl)
theorem delete_attr (L : Lang A) (e : Expr) (n : Name) (env : Env) :
    delete L (.attr e n) env = (do
    let o ← eval L e env
    L.delattr o n
    pure env) := (rfl)
theorem call_factory (f x : Val) (kw : List (Name × PV)) :
    lcall X own (.v f) [.v x] kw = val (callFactory X f x) := (rfl)
theorem call_policy (p : Policy) (l : List PV) (kw : List (Name × PV)) :
    lcall X o (.policy p) l kw = callPolicyWith X p (partsOf l) := (rfl)
theorem call_Checker (g : Nat) (kw : List (Name × PV)) :
    lcall X o (.sym "Checker") [.dict g] kw = val (do
      let st ← newDict []
      newChecker g st) := (rfl)
theorem glo_tuple : (lglob "tuple" : M A PV) = pure (.sym "tuple") := (rfl)
theorem glo_IInterface : (lglob "IInterface" : M A PV) = pure (.sym "IInterface") := (rfl)
theorem glo_NotImplementedError : (lglob "NotImplementedError" : M A PV) = pure (.sym "NotImplementedError") := (rfl)
theorem set_regT (t : String) (x : Val) : (lsetitem (.sym "_checkers") (.v (.type t)) (.v x) : M A Unit) =
    M.modify fun s => { s with reg := s.reg.set (.ty t) x } := (rfl)
theorem set_regM (t : String) (x : Val) : (lsetitem (.sym "_checkers") (.v (.module t)) (.v x) : M A Unit) =
    M.modify fun s => { s with reg := s.reg.set (.mod t) x } := (rfl)
theorem set_item (d a : Nat) (n : Name) (x : Val) : (lsetitem (.dict d) (.v (.str a n)) (.v x) : M A Unit) =
    M.modify fun s => { s with dicts := fun j => if j = d then (s.dicts d).set n x else s.dicts j } := (rfl)
theorem del_regT (t : String) : (ldelitem (.sym "_checkers") (.v (.type t)) : M A Unit) = (do
    let s ← M.get
    if s.reg.mem (.ty t) then M.modify fun s => { s with reg := s.reg.del (.ty t) } else M.throw .keyError) := (rfl)
theorem del_regM (t : String) : (ldelitem (.sym "_checkers") (.v (.module t)) : M A Unit) = (do
    let s ← M.get
    if s.reg.mem (.mod t) then M.modify fun s => { s with reg := s.reg.del (.mod t) } else M.throw .keyError) := (rfl)
theorem reg_type (t : String) (d : Val) : (regGet (.type t) d : M A PV) = (do
    let s ← M.get
    pure (.v ((s.reg.get? (.ty t)).getD d))) := (rfl)
theorem reg_module (t : String) (d : Val) : (regGet (.module t) d : M A PV) = (do
    let s ← M.get
    pure (.v ((s.reg.get? (.mod t)).getD d))) := (rfl)
theorem new_dict : (lnewDict [] : M A PV) = (do
    let d ← newDict []
    pure (.dict d)) := (rfl)
theorem mod_participation (a p : Nat) (f : String) : (lbin "%" (.v (.str a f)) (.part p) : M A PV) = pure (.v (.str 0 f)) := (rfl)
theorem assign_sub (L : Lang A) (e i : Expr) (x : PV) (env : Env) : assign L (.sub e i) x env = (do
    let o ← eval L e env
    let k ← eval L i env
    L.setitem o k x
    pure env) := (rfl)
theorem assign_tuple (ts : List Expr) (xs : List PV) (env : Env) :
    assign (lang X o) (.tuple ts) (.tuple xs) env = assignAll (assign1 (lang X o)) ts xs env := (rfl)
theorem assignAll_nil (f : Expr → PV → Env → M A Env) (env : Env) : assignAll f [] [] env = pure env := (rfl)
theorem assignAll_cons (f : Expr → PV → Env → M A Env) (t : Expr) (x : PV) (ts : List Expr) (xs : List PV) (env : Env) :
    assignAll f (t :: ts) (x :: xs) env = (do
      let env' ← f t x env
      assignAll f ts xs env') := (rfl)
theorem assign1_loc (L : Lang A) (n : Name) (x : PV) (env : Env) : assign1 L (.loc n) x env = pure (env.put n x) := (rfl)
theorem assign1_glo (L : Lang A) (n : Name) (x : PV) (env : Env) : assign1 L (.glo n) x env = (do
    L.setGlob n x
    pure env) := (rfl)
theorem set_participations (i : Nat) : lsetattr X (.v (.ix i)) "participations" (.list []) =
    M.modify fun s => { s with ixs := fun j => if j = i then { s.ixs i with participations := [] } else s.ixs j } := (rfl)
theorem delete_sub (L : Lang A) (e i : Expr) (env : Env) : delete L (.sub e i) env = (do
    let o ← eval L e env
    let k ← eval L i env
    L.delitem o k
    pure env) := (rfl)

end host

set_option maxRecDepth 8000

/-- Run the source up to the next operation whose outcome is not known. -/
syntax "pysteps" ("[" Lean.Parser.Tactic.simpLemma,* "]")? : tactic
macro_rules
  | `(tactic| pysteps) => `(tactic| pysteps [])
  | `(tactic| pysteps [$ts,*]) => `(tactic|
    simp only [↓run_eq, ↓runIn_eq, ↓fork_bp_nil, ↓fork_bp_default, ↓fork_pure, ↓fork_throw, ↓fork_diverge, ↓fork_stuck, ↓fork_get, ↓fork_modify,
      ↓fork_bind, ↓fork_tryCatch, ↓fork_ite, ↓ev_loc, ↓fork_fetch, ↓ev_glo, ↓ev_str, ↓ev_num, ↓ev_none,
      ↓ev_true, ↓ev_false, ↓ev_attr, ↓ev_method, ↓ev_super, ↓ev_callN, ↓ev_call_query, ↓ev_call_policy, ↓ev_call_attributeError, ↓ev_call_notImplemented, ↓ev_callC, ↓ev_callL, ↓ev_cmp, ↓ev_and, ↓ev_or, ↓ev_not,
      ↓ev_ife, ↓ev_bin, ↓ev_sub, ↓ev_slice, ↓ev_tuple, ↓ev_list, ↓ev_dict, ↓ev_comp, ↓ev_fstr, ↓ev_fmt, ↓ea_nil, ↓ea_star, ↓ea_kw,
      ↓ea_dstar, ↓fork_spread, ↓ea_loc, ↓ea_glo, ↓ea_str, ↓ea_num, ↓ea_none, ↓ea_true, ↓ea_false, ↓ea_attr, ↓ea_call, ↓ea_cmp, ↓ea_bin, ↓ea_tuple, ↓ea_fmt, ↓ea_sub, ↓ea_not, ↓ex_expr, ↓ex_pass, ↓ex_assign, ↓ex_ret, ↓ex_raise, ↓ex_reraise, ↓ex_del, ↓ex_if,
      ↓ex_while, ↓ex_for, ↓ex_fdef, ↓ex_try, ↓ab_exc, ↓ab_next, ↓ab_ret, ↓aa_nil, ↓es_nil, ↓es_cons, ↓as_next, ↓as_ret, ↓as_exc,
      ↓ha_nil, ↓ha_any, ↓ha_class, ↓ha_as, ↓ai_next, ↓ai_ret, ↓ai_exc, ↓im_next, ↓im_ret, ↓im_exc, ↓leave_ret, ↓leave_exc, ↓leave_next,
      Env.receiver, bindParams_nil, bindRest_none, bindRest_star, bindRest_dstar, bindRest_both, get_nil, get_cons, cond_true, cond_false, String.reduceBEq, Env.put, compare_is, compare_isNot, compare_isIn, compare_notIn, compare_eq, compare_ne, compare_lt, compare_le, compare_gt, compare_ge,
      lang_glob, lang_setGlob, lang_getattr, lang_setattr, lang_delattr, lang_getitem, lang_setitem, lang_delitem, lang_method, lang_call, lang_same, lang_compare, lang_bin, lang_truth, lang_fmt, lang_iter, lang_unpack, lang_catches, lang_toExn, lang_fuel, lang_newDict,
      own_role, user_role, truthy_bool, truthy_none, same_v, orElse, val, unit, truthOf,
      glo_thread_local, glo__checkers, glo__available_by_default, glo_Checker, glo_Proxy, glo_ProxyPy, glo_PyProxyBase, glo_CombinedChecker, glo_TracebackSupplement, glo_DEFINABLE_TYPES, glo_dict, glo_sys, glo_functools, glo_isinstance, glo__builtin_isinstance, glo_hasattr, glo_getattr, glo_setattr, glo_delattr, glo_type, glo_hash, glo_bool, glo_super, glo_selectChecker, glo_getChecker, glo_removeSecurityProxy, glo_getProxiedObject, glo_ProxyFactory, glo_NamesChecker, glo__check_name, glo__fmt_address, glo_queryInteraction, glo_getSecurityPolicy, glo_Unauthorized, glo_ForbiddenAttribute, glo_AttributeError, glo_TypeError, glo_ValueError, glo_DuplicationError, glo_NoInteraction, glo_ExistingInteraction, glo_CheckerPublic, glo_NoProxy, glo__defaultChecker, glo_NotImplemented, glo__getChecker, glo_Paranoid, glo_system_user, glo__defaultPolicy, setGlob__defaultPolicy, get_interaction, get_previous, slot_some, slot_none, get_getPermissions, get_setPermissions, readDict_checker, readDict_combined, writeDict_checker, writeDict_combined, get_checker2, get_participations, get___length_hint__, get___class__, get___module__, get___name__, get_baseName, get_base, get_partInteraction, get_principal, get_bound, get_frame, set_interaction, set_previous, set_proxy, set_partInteraction, del_interaction, del_previous, do_get1, do_get2, do_check, do_check_getattr, do_check_setattr, do_checkPermission, do_proxy, do_add, do_format, do_superGet, sup_wrapped, sup_checker, do_append, do_remove, do_baseCheck, do_baseSetattr, do_regGet1, do_regGet2, do_getframe, do_updateWrapper, do_locals, call_isinstance_Proxy, call_isinstance_ProxyPy, call__builtin_isinstance_Proxy, call__builtin_isinstance_ProxyPy, call_isinstance_Checker, call_isinstance_types, call_getSC, call_getIx, call_getattr2, call_hasattr, call_setattr, call_delattr, call_hash, call_bool, call_type, call_super, call_select, call_getChecker, call_ProxyFactory, call_Proxy, call_ProxyPy, call_checkName, call_fmtAddress, call_query, call_getPolicy, call_remove, call_combined, call_Unauthorized, call_Forbidden, call_AttributeError, call_AttributeError0, call_TypeError, call_ValueError, call_Existing, call_DuplicationType, call_DuplicationModule, call_DuplicationName, call_getChecker', call_base, call_clos, catch_Unauthorized, catch_ForbiddenAttribute, catch_AttributeError, catch_TypeError, raise_exn, raise_NoInteraction, in_tuple, notIn_tuple, in_available, in_checkersT, in_checkersM, eq_own, ne_own, eq_user, ne_user, truth_v, truth_dict, truth_list, iter_tuple, iter_parts, unpack_tuple, text_str, text_v, same_user, raising_eq, assign_loc, assign_glo, assign_attr, delete_attr,
      call_factory, call_policy, call_Checker, glo_tuple, glo_IInterface, glo_NotImplementedError, set_regT, set_regM, set_item, del_regT, del_regM, reg_type, reg_module, new_dict, mod_participation, assign_sub, delete_sub, assign_tuple, assignAll_nil, assignAll_cons, assign1_loc, assign1_glo,
      set_participations, eq_raw, ne_raw, lt_raw, le_raw, gt_raw, ge_raw, eq_userAt, act_own, act_user, vals_map, call_user, call_user0, call_user1, call_inplace, cut_inplace, mod_name,
      plain_name, name_str, call_checked, sup_setWrapped, sup_setChecker,
      among_nil, among_cons, String.reduceEq, reduceIte, reduceCtorEq, Bool.not_eq_true', decide_eq_true_eq,
      decide_eq_false_iff_not, Bool.not_true, Bool.not_false, Bool.true_eq_false, Bool.false_eq_true, decide_true, decide_false,
      Bool.or_false, Bool.false_or, Bool.or_true, Bool.true_or, ne_eq, not_true_eq_false, not_false_eq_true, ↓dropping_next, ↓dropping_ret, ↓dropping_exc, Option.getD_some, Option.getD_none, $ts,*])

/-- Run both sides through every operation they have in common. -/
syntax "pyforks" ("[" Lean.Parser.Tactic.simpLemma,* "]")? : tactic
macro_rules
  | `(tactic| pyforks) => `(tactic| pyforks [])
  | `(tactic| pyforks [$ts,*]) => `(tactic|
    (pysteps [$ts,*]
     repeat' (refine fork_ext (fun _ _ _ => ?_) (fun _ _ _ => ?_) <;> try pysteps [$ts,*])))

end ZS.PyC
