import Verif.Model.PyWatch
import Verif.Lemmas.PyRun

/-!
# Running the source of watching checkers step by step

The lemmas of `Lemmas/PyRun.lean` for `watchWith`.
-/

namespace ZS.PyC
open ZS
variable {A β : Type}

theorem unlogged_logged (s : St A) (l : List PV) : unlogged (logged s l) = s := (rfl)
theorem logged_app (s : St A) (l : List PV) : (logged s l).app.2 = l := (rfl)
theorem logged_avail (s : St A) (l : List PV) : (logged s l).avail = s.avail := (rfl)
theorem logged_unlogged (s : St (Logged A)) : logged (unlogged s) s.app.2 = s := (rfl)
theorem logged_write (s : St A) (l m : List PV) :
    ({ logged s l with app := ((logged s l).app.1, (logged s l).app.2 ++ m) } : St (Logged A)) = logged s (l ++ m) := (rfl)

/-- Something that writes no message, followed by something else. -/
theorem fork_quietly {α : Type} (x : M A α) (k : α → St (Logged A) → Res β × St (Logged A)) (h : Exn → St (Logged A) → Res β × St (Logged A))
    (s : St A) (l : List PV) : fork (quietly x) k h (logged s l) =
      match x s with
      | (.ok a, s') => k a (logged s' l)
      | (.err e, s') => h e (logged s' l)
      | (.diverge, s') => (.diverge, logged s' l) := by
  unfold fork quietly
  rw [unlogged_logged, logged_app]
  rcases x s with ⟨r, s'⟩
  cases r <;> rfl

theorem fork_quietly_ok {α : Type} {x : M A α} {k : α → St (Logged A) → Res β × St (Logged A)} {h : Exn → St (Logged A) → Res β × St (Logged A)}
    {s s' : St A} {l : List PV} {a : α} (e : x s = (.ok a, s')) : fork (quietly x) k h (logged s l) = k a (logged s' l) := by
  rw [fork_quietly, e]
theorem fork_quietly_err {α : Type} {x : M A α} {k : α → St (Logged A) → Res β × St (Logged A)} {h : Exn → St (Logged A) → Res β × St (Logged A)}
    {s s' : St A} {l : List PV} {x' : Exn} (e : x s = (.err x', s')) : fork (quietly x) k h (logged s l) = h x' (logged s' l) := by
  rw [fork_quietly, e]
theorem fork_quietly_diverge {α : Type} {x : M A α} {k : α → St (Logged A) → Res β × St (Logged A)} {h : Exn → St (Logged A) → Res β × St (Logged A)}
    {s s' : St A} {l : List PV} (e : x s = (.diverge, s')) : fork (quietly x) k h (logged s l) = (.diverge, logged s' l) := by
  rw [fork_quietly, e]

section
variable (X : Ctx A) (v : Int) (sup cls second : Checking A) (log : List PV → M (Logged A) PV)

theorem watch_glob : (watchWith X v sup cls second log).glob = wglob := (rfl)
theorem watch_getattr : (watchWith X v sup cls second log).getattr = wgetattr v := (rfl)
theorem watch_method : (watchWith X v sup cls second log).method = wmethod X sup cls second log := (rfl)
theorem watch_compare : (watchWith X v sup cls second log).compare = wcompare := (rfl)
theorem watch_bin : (watchWith X v sup cls second log).bin = wbin X := (rfl)
theorem watch_truth : (watchWith X v sup cls second log).truth = wtruth := (rfl)
theorem watch_fmt : (watchWith X v sup cls second log).fmt = wfmt X := (rfl)
theorem watch_join : (watchWith X v sup cls second log).join = fun l => pure (.list l) := (rfl)
theorem watch_catches : (watchWith X v sup cls second log).catches = lcatches := (rfl)
theorem watch_raising (x : PV) : raising (watchWith X v sup cls second log) x = (ltoExn x).getD .typeError := by
  unfold raising; rw [show (watchWith X v sup cls second log).toExn = ltoExn from rfl]; cases ltoExn x <;> rfl

theorem wglo_Unauthorized : (wglob "Unauthorized" : M (Logged A) PV) = pure (.sym "Unauthorized") := (rfl)
theorem wglo_Forbidden : (wglob "ForbiddenAttribute" : M (Logged A) PV) = pure (.sym "ForbiddenAttribute") := (rfl)
theorem wglo_avail : (wglob "_available_by_default" : M (Logged A) PV) = pure (.sym "_available_by_default") := (rfl)
theorem wglo_Checker : (wglob "Checker" : M (Logged A) PV) = pure (.sym "Checker") := (rfl)
theorem wget_verbosity : (wgetattr v (.sym "self") "verbosity" : M (Logged A) PV) = pure (.v (.int v)) := (rfl)
theorem wget_file : (wgetattr v (.sym "self") "_file" : M (Logged A) PV) = pure (.sym "_file") := (rfl)
theorem wget_second : (wgetattr v (.sym "self") "_checker2" : M (Logged A) PV) = pure (.sym "_checker2") := (rfl)
theorem wcmp_gt (a b : Int) : (wcompare .gt (.v (.int a)) (.v (.int b)) : M (Logged A) PV) = pure (.v (.bool (decide (a > b)))) := (rfl)
theorem wcmp_ge (a b : Int) : (wcompare .ge (.v (.int a)) (.v (.int b)) : M (Logged A) PV) = pure (.v (.bool (decide (a ≥ b)))) := (rfl)
theorem wcmp_in (a : Nat) (n : Name) : (wcompare .isIn (.v (.str a n)) (.sym "_available_by_default") : M (Logged A) PV) = (do
    let s ← M.get
    pure (.v (.bool (decide (n ∈ s.avail))))) := (rfl)
theorem wtruth_bool (b : Bool) : (wtruth (.v (.bool b)) : M (Logged A) Bool) = pure b := (rfl)
theorem wdo_super (o : PV) (m : Name) (x : Val) (a : Nat) (n : Name) (kw : List (Name × PV)) :
    wmethod X sup cls second log (.sup o) m [.v x, .v (.str a n)] kw = sup m x n := (rfl)
theorem wdo_log (l : List PV) (kw : List (Name × PV)) :
    wmethod X sup cls second log (.sym "self") "_log" l kw = log (.sym "self" :: l) := (rfl)
theorem wdo_write (l : List PV) (kw : List (Name × PV)) :
    wmethod X sup cls second log (.sym "_file") "write" [.list l] kw = (do
      M.modify fun s => { s with app := (s.app.1, s.app.2 ++ [.list l]) }
      pure (.v .none)) := (rfl)
theorem wdo_cls (m : Name) (x : Val) (a : Nat) (n : Name) (kw : List (Name × PV)) :
    wmethod X sup cls second log (.sym "Checker") m [.sym "self", .v x, .v (.str a n)] kw = cls m x n := (rfl)
theorem wdo_second (m : Name) (x : Val) (a : Nat) (n : Name) (kw : List (Name × PV)) :
    wmethod X sup cls second log (.sym "_checker2") m [.v x, .v (.str a n)] kw = second m x n := (rfl)
theorem wdo_format (a : Nat) (t : String) (l : List PV) (kw : List (Name × PV)) :
    wmethod X sup cls second log (.v (.str a t)) "format" l kw = message X (braces t.toList []) l := (rfl)
theorem wbin_tuple (a : Nat) (t : String) (l : List PV) : wbin X "%" (.v (.str a t)) (.tuple l) = message X (percent t.toList []) l := (rfl)
theorem wbin_list (a : Nat) (t : String) (l : List PV) : wbin X "%" (.v (.str a t)) (.list l) = message X (percent t.toList []) [.list l] := (rfl)
theorem wfmt_r (x : Val) : wfmt X "r" (.v x) = (do
    let _ ← quietly (reprOf X x)
    pure (.bound (.v x) "__repr__")) := (rfl)
theorem wfmt_str (a : Nat) (t : String) : wfmt X "" (.v (.str a t)) = pure (.v (.str 0 t)) := (rfl)

/-- The text of a line about `name` and `object`. -/
def lineOf (p : String) (n : Name) (o : Val) : List PV := [.v (.str 0 p), .v (.str 0 n), .v (.str 0 " on "), .bound (.v o) "__repr__"]

theorem message_on (p : String) (a : Nat) (n : Name) (o : Val) : message X [.lit p, .str, .lit " on ", .repr] [.v (.str a n), .v o] = (do
    let _ ← quietly (reprOf X o)
    pure (.list (lineOf p n o))) := by
  apply ext_fork
  intro s
  simp only [message, fill, wrepr, strPieces, fork_bind]
  rfl
theorem message_nl (l : List PV) : message X [.str, .lit "\n"] [.list l] = pure (.list (l ++ [.v (.str 0 "\n")])) := (rfl)

theorem t_nl : percent "%s\n".toList [] = [.str, .lit "\n"] := by decide
theorem t_available : percent "[CHK] + Always available: %s on %r".toList [] = [.lit "[CHK] + Always available: ", .str, .lit " on ", .repr] := by decide
theorem t_available_get : percent "[CHK] + Always available getattr: %s on %r".toList [] =
    [.lit "[CHK] + Always available getattr: ", .str, .lit " on ", .repr] := by decide
theorem t_granted_get : percent "[CHK] + Granted getattr: %s on %r".toList [] =
    [.lit "[CHK] + Granted getattr: ", .str, .lit " on ", .repr] := by decide
theorem t_granted_set : braces "[CHK] + Granted setattr: {} on {!r}".toList [] =
    [.lit "[CHK] + Granted setattr: ", .str, .lit " on ", .repr] := by decide
theorem t_unauthorized_set : braces "[CHK] - Unauthorized setattr: {} on {!r}".toList [] =
    [.lit "[CHK] - Unauthorized setattr: ", .str, .lit " on ", .repr] := by decide
end

section
variable {L : Lang A} {env : Env} {h : Exn → St A → Res β × St A} {s : St A} {ka : List PV × List (Name × PV) → St A → Res β × St A}
theorem ea_fstr (l : List Expr) (r : List Expr) : fork (evalArgs L (.fstr l :: r) env) ka h s =
    fork (eval L (.fstr l) env) (fun x => fork (evalArgs L r env) (fun a => ka (x :: a.1, a.2)) h) h s := ea_cons _ r rfl
end

/-- Run the source of watching checkers up to the next operation whose outcome is not known. -/
syntax "wsteps" ("[" Lean.Parser.Tactic.simpLemma,* "]")? : tactic
macro_rules
  | `(tactic| wsteps) => `(tactic| wsteps [])
  | `(tactic| wsteps [$ts,*]) => `(tactic|
    pysteps [↓ea_fstr, watch_glob, watch_getattr, watch_method, watch_compare, watch_bin, watch_truth, watch_fmt, watch_join, watch_catches, watch_raising,
      wglo_Unauthorized, wglo_Forbidden, wglo_avail, wglo_Checker, wget_verbosity, wget_file, wget_second, wcmp_gt, wcmp_ge, wcmp_in, wtruth_bool,
      wdo_super, wdo_log, wdo_write, wdo_cls, wdo_second, wdo_format, wbin_tuple, wbin_list, wfmt_r, wfmt_str, message_on, message_nl,
      t_nl, t_available, t_available_get, t_granted_get, t_granted_set, t_unauthorized_set, logged_avail, $ts,*])

end ZS.PyC
