import Verif.Lemmas.PyWatchRun
import Verif.Props.Watching
import Verif.Props.SourceChecker

/-!
# C84 The source of watching checkers does what the model says
-/

namespace ZS.Spec
open ZS.PyC

/-- How a line begins, as documented by the messages of checker.py:611-669. -/
def linePrefix : CheckKind → Verdict → String
  | .check, .alwaysAvailable => "[CHK] + Always available: "
  | .check, .granted => "[CHK] + Granted: "
  | .check, .unauthorized => "[CHK] - Unauthorized: "
  | .check, .forbidden => "[CHK] - Forbidden: "
  | .getattr, .alwaysAvailable => "[CHK] + Always available getattr: "
  | .getattr, .granted => "[CHK] + Granted getattr: "
  | .getattr, .unauthorized => "[CHK] - Unauthorized getattr: "
  | .getattr, .forbidden => "[CHK] - Forbidden getattr: "
  | .setattr, .alwaysAvailable => "[CHK] + Always available setattr: "
  | .setattr, .granted => "[CHK] + Granted setattr: "
  | .setattr, .unauthorized => "[CHK] - Unauthorized setattr: "
  | .setattr, .forbidden => "[CHK] - Forbidden setattr: "

/-- What is written to the file for a line: the verdict, the name, the representation of the object, and the end of the line. -/
def lineText (l : Line) : PV :=
  .list [.v (.str 0 (linePrefix l.kind l.verdict)), .v (.str 0 l.name), .v (.str 0 " on "), .bound (.v l.object) "__repr__", .v (.str 0 "\n")]

end ZS.Spec

namespace ZS.Props
open ZS.PyC ZS.Spec ZS.Src
variable {A : Type}

/-- The outcome of a check that returns nothing. -/
def nothing : Res Unit → Res PV
  | .ok _ => .ok (.v .none)
  | .err e => .err e
  | .diverge => .diverge

theorem nothing_ok (u : Unit) : nothing (.ok u) = .ok (.v .none) := (rfl)
theorem nothing_err (e : Exn) : nothing (.err e) = .err e := (rfl)
theorem nothing_diverge : nothing .diverge = .diverge := (rfl)

/-- A check of the model, its lines written to the file. -/
def spoken (f : LM A) : M (Logged A) PV := fun s =>
  (nothing (f (unlogged s)).1.1, logged (f (unlogged s)).1.2 (s.app.2 ++ (f (unlogged s)).2.map lineText))

theorem spoken_at (f : LM A) (s : St A) (l : List PV) :
    spoken f (logged s l) = (nothing (f s).1.1, logged (f s).1.2 (l ++ (f s).2.map lineText)) := (rfl)

theorem unit_run (x : M A Unit) (s : St A) : unit x s = (nothing (x s).1, (x s).2) := by
  unfold unit
  show M.bind x _ s = _
  unfold M.bind
  rcases x s with ⟨r, s'⟩
  cases r <;> rfl

/-- `_log`: the message and a newline, if the verbosity is at least that of the message. -/
theorem C84_log (X : Ctx A) (v level : Int) (sup cls second : Checking A) (log : List PV → M (Logged A) PV) (m : List PV) (s : St A) (l : List PV) :
    run (watchWith X v sup cls second log) Checker.CheckerLoggingMixin._log [.sym "self", .list m, .v (.int level)] (logged s l) =
      (.ok (.v .none), logged s (l ++ if v ≥ level then [.list (m ++ [.v (.str 0 "\n")])] else [])) := by
  refine fork_run ?_
  wsteps [Checker.CheckerLoggingMixin._log]
  by_cases hv : v ≥ level
  · wsteps [hv, decide_true, if_true]
    rfl
  · wsteps [hv, decide_false, if_false, Bool.false_eq_true, List.append_nil]
    rfl

/-- Without level. -/
theorem C84_log_default (X : Ctx A) (v : Int) (sup cls second : Checking A) (log : List PV → M (Logged A) PV) (m : List PV) (s : St A) (l : List PV) :
    run (watchWith X v sup cls second log) Checker.CheckerLoggingMixin._log [.sym "self", .list m] (logged s l) =
      (.ok (.v .none), logged s (l ++ if v ≥ 1 then [.list (m ++ [.v (.str 0 "\n")])] else [])) := by
  refine fork_run ?_
  wsteps [Checker.CheckerLoggingMixin._log]
  by_cases hv : v ≥ 1
  · wsteps [hv, decide_true, if_true]
    rfl
  · wsteps [hv, decide_false, if_false, Bool.false_eq_true, List.append_nil]
    rfl

/-- What `_log` does with a message of the level. -/
def written (v level : Int) (m : List PV) : List PV := if v ≥ level then [.list (m ++ [.v (.str 0 "\n")])] else []

/-- A `_log` that does what it should. -/
def Logs (v : Int) (log : List PV → M (Logged A) PV) : Prop :=
  (∀ m level s l, log [.sym "self", .list m, .v (.int level)] (logged s l) = (.ok (.v .none), logged s (l ++ written v level m))) ∧
  ∀ m s l, log [.sym "self", .list m] (logged s l) = (.ok (.v .none), logged s (l ++ written v 1 m))

theorem fork_log {β : Type} {v : Int} {log : List PV → M (Logged A) PV} (H : Logs v log) (m : List PV) (level : Int)
    (k : PV → St (Logged A) → Res β × St (Logged A)) (h : Exn → St (Logged A) → Res β × St (Logged A)) (s : St A) (l : List PV) :
    fork (log [.sym "self", .list m, .v (.int level)]) k h (logged s l) = k (.v .none) (logged s (l ++ written v level m)) := by
  unfold fork
  rw [H.1]
theorem fork_log_default {β : Type} {v : Int} {log : List PV → M (Logged A) PV} (H : Logs v log) (m : List PV)
    (k : PV → St (Logged A) → Res β × St (Logged A)) (h : Exn → St (Logged A) → Res β × St (Logged A)) (s : St A) (l : List PV) :
    fork (log [.sym "self", .list m]) k h (logged s l) = k (.v .none) (logged s (l ++ written v 1 m)) := by
  unfold fork
  rw [H.2]

theorem fork_silent {β : Type} {inner : M A Unit} {x : M (Logged A) PV} (hx : x = quietly (unit inner))
    (k : PV → St (Logged A) → Res β × St (Logged A)) (h : Exn → St (Logged A) → Res β × St (Logged A)) (s : St A) (l : List PV) :
    fork x k h (logged s l) = match inner s with
      | (.ok _, s') => k (.v .none) (logged s' l)
      | (.err e, s') => h e (logged s' l)
      | (.diverge, s') => (.diverge, logged s' l) := by
  rw [hx, fork_quietly, unit_run]
  rcases inner s with ⟨r, s'⟩
  cases r <;> rfl

theorem spoken_one (l : List PV) (v level : Int) (line : Line) :
    l ++ List.map lineText (if v ≥ level then [line] else []) = l ++ written v level (lineOf (linePrefix line.kind line.verdict) line.name line.object) := by
  unfold written
  split <;> rfl

/-- Run the rest, the outcomes being known. -/
syntax "wrest " "[" Lean.Parser.Tactic.simpLemma,* "]" : tactic
macro_rules
  | `(tactic| wrest [$ts,*]) => `(tactic|
    (wsteps [logRefusal, logLine, if_true, if_false, Bool.false_eq_true, spoken_one, nothing_ok, nothing_err, nothing_diverge, List.map_nil, List.append_nil, $ts,*]
     first | done | rfl))

/-- Both outcomes of `repr`. -/
syntax "wrepr " term:max term:max term:max " with " "[" Lean.Parser.Tactic.simpLemma,* "]" : tactic
macro_rules
  | `(tactic| wrepr $X $o $s with [$ts,*]) => `(tactic|
    (rcases hr : reprOf $X $o $s with ⟨r2, s2⟩
     cases r2 with
     | ok _ => wrest [fork_quietly_ok hr, hr, $ts,*]
     | err _ => wrest [fork_quietly_err hr, hr, $ts,*]
     | diverge => wrest [fork_quietly_diverge hr, hr, $ts,*]))

/-- The `except` clauses, after an exception. -/
syntax "wrefuse " term:max term:max term:max term:max " at " term:max : tactic
macro_rules
  | `(tactic| wrefuse $X $H $o $e at $s) => `(tactic|
    (cases hu : Exn.isUnauthorized $e with
     | true => wrepr $X $o $s with [hu, fork_log_default $H]
     | false =>
       cases hf : Exn.isForbidden $e with
       | true => wrepr $X $o $s with [hu, hf, fork_log_default $H]
       | false => wrest [hu, hf]))

/-- The line about a granted check. -/
syntax "wgrant " term:max term:max term:max term:max " with " "[" Lean.Parser.Tactic.simpLemma,* "]" : tactic
macro_rules
  | `(tactic| wgrant $X $H $o $s with [$ts,*]) => `(tactic|
    (rcases hg : reprOf $X $o $s with ⟨r2, s2⟩
     cases r2 with
     | ok _ => wrest [fork_quietly_ok hg, hg, fork_log $H, $ts,*]
     | diverge => wrest [fork_quietly_diverge hg, hg, $ts,*]
     | err e =>
       wsteps [fork_quietly_err hg, logLine, hg, if_true, if_false, $ts,*]
       wrefuse $X $H $o e at s2))

/-- `check` around a base class whose `check` does `inner`. -/
theorem mixin_check (X : Ctx A) (v : Int) (sup cls second : Checking A) (log : List PV → M (Logged A) PV) (H : Logs v log)
    (o : Val) (a : Nat) (n : Name) (inner : M A Unit) (hi : sup "check" o n = quietly (unit inner)) (s : St A) (l : List PV) :
    run (watchWith X v sup cls second log) Checker.CheckerLoggingMixin.check [.sym "self", .v o, .v (.str a n)] (logged s l) =
      spoken (watched X v .check o n inner) (logged s l) := by
  refine fork_run ?_
  rw [spoken_at]
  unfold watched
  wsteps [Checker.CheckerLoggingMixin.check, fork_silent hi]
  rcases inner s with ⟨r, s1⟩
  cases r with
  | diverge => wrest []
  | ok u =>
    by_cases hv : v > 1
    · by_cases hn : n ∈ s1.avail
      · wgrant X H o s1 with [hv, hn, grantVerdict]
      · wgrant X H o s1 with [hv, hn, grantVerdict]
    · wrest [hv]
  | err e => wrefuse X H o e at s1

/-- `check_getattr` around a base class whose `check` does `inner`. -/
theorem mixin_check_getattr (X : Ctx A) (v : Int) (sup cls second : Checking A) (log : List PV → M (Logged A) PV) (H : Logs v log)
    (o : Val) (a : Nat) (n : Name) (inner : M A Unit) (hi : sup "check" o n = quietly (unit inner)) (s : St A) (l : List PV) :
    run (watchWith X v sup cls second log) Checker.CheckerLoggingMixin.check_getattr [.sym "self", .v o, .v (.str a n)] (logged s l) =
      spoken (watched X v .getattr o n inner) (logged s l) := by
  refine fork_run ?_
  rw [spoken_at]
  unfold watched
  wsteps [Checker.CheckerLoggingMixin.check_getattr, fork_silent hi]
  rcases inner s with ⟨r, s1⟩
  cases r with
  | diverge => wrest []
  | ok u =>
    by_cases hv : v > 1
    · by_cases hn : n ∈ s1.avail
      · wgrant X H o s1 with [hv, hn, grantVerdict]
      · wgrant X H o s1 with [hv, hn, grantVerdict]
    · wrest [hv]
  | err e => wrefuse X H o e at s1

/-- `check_setattr` around a base class whose `check_setattr` does `inner`. -/
theorem mixin_check_setattr (X : Ctx A) (v : Int) (sup cls second : Checking A) (log : List PV → M (Logged A) PV) (H : Logs v log)
    (o : Val) (a : Nat) (n : Name) (inner : M A Unit) (hi : sup "check_setattr" o n = quietly (unit inner)) (s : St A) (l : List PV) :
    run (watchWith X v sup cls second log) Checker.CheckerLoggingMixin.check_setattr [.sym "self", .v o, .v (.str a n)] (logged s l) =
      spoken (watched X v .setattr o n inner) (logged s l) := by
  refine fork_run ?_
  rw [spoken_at]
  unfold watched
  wsteps [Checker.CheckerLoggingMixin.check_setattr, fork_silent hi]
  rcases inner s with ⟨r, s1⟩
  cases r with
  | diverge => wrest []
  | ok u =>
    by_cases hv : v > 1
    · wgrant X H o s1 with [hv, grantVerdict]
    · wrest [hv]
  | err e => wrefuse X H o e at s1

theorem quietly_spoken (x : M A Unit) : quietly (unit x) = spoken (silent x) := by
  funext s
  show ((unit x (unlogged s)).1, logged (unit x (unlogged s)).2 s.app.2) = _
  rw [unit_run]
  unfold spoken silent
  rw [List.map_nil, List.append_nil]

theorem spoken_ext {x : M (Logged A) PV} {f : LM A} (h : ∀ s l, x (logged s l) = spoken f (logged s l)) : x = spoken f := by
  funext s
  exact h (unlogged s) s.app.2

theorem log_logs (X : Ctx A) (v : Int) (sup cls second : Checking A) (log : List PV → M (Logged A) PV) :
    Logs v (fun args => run (watchWith X v sup cls second log) Checker.CheckerLoggingMixin._log args) :=
  ⟨fun m level s l => C84_log X v level sup cls second log m s l, fun m s l => C84_log_default X v sup cls second log m s l⟩

/-- The name of the method of the base class: `check_getattr` calls `check` (checker.py:632). -/
def inherited : CheckKind → Name
  | .setattr => "check_setattr"
  | _ => "check"

/-- **C84** The methods of `CheckerLoggingMixin`, over any base class: decide, act and write to the file as the model says. -/
theorem C84_mixin (X : Ctx A) (v : Int) (sup : Checking A) (k : CheckKind) (o : Val) (a : Nat) (n : Name) (inner : M A Unit)
    (hi : sup (inherited k) o n = quietly (unit inner)) :
    run (watchLang X v sup) (mixinFn k) [.sym "self", .v o, .v (.str a n)] = spoken (watched X v k o n inner) := by
  apply spoken_ext
  intro s l
  cases k with
  | check => exact mixin_check X v sup _ _ _ (log_logs X v _ _ _ _) o a n inner hi s l
  | getattr => exact mixin_check_getattr X v sup _ _ _ (log_logs X v _ _ _ _) o a n inner hi s l
  | setattr => exact mixin_check_setattr X v sup _ _ _ (log_logs X v _ _ _ _) o a n inner hi s l

theorem fork_spoken {β : Type} {x : M (Logged A) PV} {f : LM A} (hx : x = spoken f)
    (k : PV → St (Logged A) → Res β × St (Logged A)) (h : Exn → St (Logged A) → Res β × St (Logged A)) (s : St A) (l : List PV) :
    fork x k h (logged s l) = match f s with
      | ((.ok _, s'), ls) => k (.v .none) (logged s' (l ++ ls.map lineText))
      | ((.err e, s'), ls) => h e (logged s' (l ++ ls.map lineText))
      | ((.diverge, s'), ls) => (.diverge, logged s' (l ++ ls.map lineText)) := by
  subst hx
  unfold fork
  rw [spoken_at]
  rcases f s with ⟨⟨r, s'⟩, ls⟩
  cases r <;> rfl

/-- **C84** `CombinedChecker.check`, `Checker` being the class of watching checkers. -/
theorem C84_combined_check (X : Ctx A) (cls second : Checking A) (o : Val) (a : Nat) (n : Name) (f g : LM A)
    (hf : cls "check" o n = spoken f) (hg : second "check" o n = spoken g) :
    run (combinedLang X cls second) Checker.CombinedChecker.check [.sym "self", .v o, .v (.str a n)] = spoken (combineL f g) := by
  apply spoken_ext
  intro s l
  unfold combinedLang
  refine fork_run ?_
  rw [spoken_at]
  unfold combineL
  wsteps [Checker.CombinedChecker.check, fork_spoken hf]
  rcases f s with ⟨⟨r, s1⟩, l1⟩
  cases r with
  | ok u => wrest []
  | diverge => wrest []
  | err e =>
    cases h1 : e.isForbidden with
    | true =>
      wsteps [h1, fork_spoken hg]
      rcases g s1 with ⟨⟨r2, s2⟩, l2⟩
      cases r2 <;> wrest [List.map_append, List.append_assoc]
    | false =>
      cases h2 : e.isUnauthorized with
      | false => wrest [h1, h2]
      | true =>
        wsteps [h1, h2, fork_spoken hg]
        rcases g s1 with ⟨⟨r2, s2⟩, l2⟩
        cases r2 with
        | ok u => wrest [List.map_append, List.append_assoc]
        | diverge => wrest [List.map_append, List.append_assoc]
        | err e2 => cases h3 : e2.isForbidden <;> wrest [h3, List.map_append, List.append_assoc]

/-- **C84** `CombinedChecker.check_setattr`. -/
theorem C84_combined_check_setattr (X : Ctx A) (cls second : Checking A) (o : Val) (a : Nat) (n : Name) (f g : LM A)
    (hf : cls "check_setattr" o n = spoken f) (hg : second "check_setattr" o n = spoken g) :
    run (combinedLang X cls second) Checker.CombinedChecker.check_setattr [.sym "self", .v o, .v (.str a n)] = spoken (combineL f g) := by
  apply spoken_ext
  intro s l
  unfold combinedLang
  refine fork_run ?_
  rw [spoken_at]
  unfold combineL
  wsteps [Checker.CombinedChecker.check_setattr, fork_spoken hf]
  rcases f s with ⟨⟨r, s1⟩, l1⟩
  cases r with
  | ok u => wrest []
  | diverge => wrest []
  | err e =>
    cases h1 : e.isForbidden with
    | true =>
      wsteps [h1, fork_spoken hg]
      rcases g s1 with ⟨⟨r2, s2⟩, l2⟩
      cases r2 <;> wrest [List.map_append, List.append_assoc]
    | false =>
      cases h2 : e.isUnauthorized with
      | false => wrest [h1, h2]
      | true =>
        wsteps [h1, h2, fork_spoken hg]
        rcases g s1 with ⟨⟨r2, s2⟩, l2⟩
        cases r2 with
        | ok u => wrest [List.map_append, List.append_assoc]
        | diverge => wrest [List.map_append, List.append_assoc]
        | err e2 => cases h3 : e2.isForbidden <;> wrest [h3, List.map_append, List.append_assoc]

theorem half_source (X : Ctx A) (H : Val → Name → M A Bool) (v : Option Int) (g st : Nat) (k : CheckKind) (o : Val) (n : Name) :
    sourceHalf X H v g st k o n = spoken (half X v k o n (match k with
      | .setattr => plainSetattr X st o n
      | _ => plainCheck X H g o n)) := by
  cases v with
  | none => cases k <;> exact quietly_spoken _
  | some v => cases k <;> exact C84_mixin X v _ _ o 0 n _ rfl

/-- **C84** Checkers of any mix of classes, watching or not, combined in any way: the source decides, acts and writes to the file as the model
says. -/
theorem C84_source (X : Ctx A) (H : Val → Name → M A Bool) (verb : Val → Option Int) (k : CheckKind) (c o : Val) (n : Name) :
    sourceWatch X H verb k c o n = spoken (watchCheck X H verb k c o n) := by
  induction c generalizing k with
  | checker i g st =>
    rw [sourceWatch, half_source]
    cases k <;> rfl
  | combined i g st c2 ih =>
    rw [sourceWatch]
    cases k with
    | setattr =>
      exact C84_combined_check_setattr X _ _ o 0 n _ _ (half_source X H _ g st .setattr o n) (ih .setattr)
    | check => exact C84_combined_check X _ _ o 0 n _ _ (half_source X H _ g st .check o n) (ih .check)
    | getattr => exact C84_combined_check X _ _ o 0 n _ _ (half_source X H _ g st .check o n) (ih .check)
  | _ => exact quietly_spoken _

/-- The methods of `CheckerPy`, run from source. -/
def sourceBase (X : Ctx A) (x : Val) : Checking A := fun m o n =>
  if m = "check" then quietly (run (lang X own) Checker.CheckerPy.check [.v x, .v o, .v (.str 0 n)])
  else if m = "check_setattr" then quietly (run (lang X own) Checker.CheckerPy.check_setattr [.v x, .v o, .v (.str 0 n)])
  else stuck

/-- **C84** The pure Python implementation, all of it from source: a watching checker over `CheckerPy`. -/
theorem C84_source_py (X : Ctx A) (hp : X.impl = .py) (v : Int) (k : CheckKind) (i g st : Nat) (o : Val) (n : Name) :
    run (watchLang X v (sourceBase X (.checker i g st))) (mixinFn k) [.sym "self", .v o, .v (.str 0 n)] =
      spoken (watchCheck X (hasattrX X) (fun _ => some v) k (.checker i g st) o n) := by
  cases k with
  | setattr =>
    refine C84_mixin X v _ .setattr o 0 n (plainSetattr X st o n) ?_
    show quietly (run (lang X own) Checker.CheckerPy.check_setattr [.v (.checker i g st), .v o, .v (.str 0 n)]) = _
    rw [C76_check_setattr X _ g st 0 rfl o n, plainSetattr, hp]
  | check =>
    refine C84_mixin X v _ .check o 0 n (plainCheck X (hasattrX X) g o n) ?_
    show quietly (run (lang X own) Checker.CheckerPy.check [.v (.checker i g st), .v o, .v (.str 0 n)]) = _
    rw [C76_check X _ g st 0 rfl o n, plainCheck, hp]
  | getattr =>
    refine C84_mixin X v _ .getattr o 0 n (plainCheck X (hasattrX X) g o n) ?_
    show quietly (run (lang X own) Checker.CheckerPy.check [.v (.checker i g st), .v o, .v (.str 0 n)]) = _
    rw [C76_check X _ g st 0 rfl o n, plainCheck, hp]

/-- **C84** Watching from source does not change any decision or effect, if `repr` of the object does no harm. -/
theorem C84_transparent (X : Ctx A) (H : Val → Name → M A Bool) (verb : Val → Option Int) (k : CheckKind) (c o : Val) (n : Name)
    (h : ReprHarmless X.W o) (s : St A) (l : List PV) :
    (sourceWatch X H verb k c o n (logged s l)).1 = nothing (chkCheck X H k c o n s).1 ∧
    unlogged (sourceWatch X H verb k c o n (logged s l)).2 = (chkCheck X H k c o n s).2 := by
  rw [C84_source, spoken_at, ← C47_transparent X H verb k c o n h s]
  exact ⟨rfl, rfl⟩

/-- **C84** Exactly the lines required are written, in the wording of the source, after those already in the file. -/
theorem C84_lines (X : Ctx A) (v : Int) (sup : Checking A) (k : CheckKind) (o : Val) (a : Nat) (n : Name) (inner : M A Unit)
    (hi : sup (inherited k) o n = quietly (unit inner)) (h : ReprHarmless X.W o) (s : St A) (l : List PV) :
    ∃ lines, Reports v k n o (inner s).2.avail (inner s).1 lines ∧
      (run (watchLang X v sup) (mixinFn k) [.sym "self", .v o, .v (.str a n)] (logged s l)).2.app.2 = l ++ lines.map lineText :=
  ⟨(watched X v k o n inner s).2, C47_log X v k o n inner h s, by rw [C84_mixin X v sup k o a n inner hi, spoken_at]; rfl⟩

end ZS.Props

namespace ZS.SourceWatchEx
open ZS.PyC ZS.Props ZS.Spec

/-- The file already holds a line. -/
def old : PV := .list [.v (.str 0 "old\n")]

/-- A combined watching checker of verbosity 1: "a" is granted by the second half only, and the file speaks of a refusal. -/
example : sourceWatch (Ex.X .py) (hasattrX (Ex.X .py)) (fun _ => some 1) .getattr (.combined 61 0 0 Ex.c1) (.obj 1) "a" (logged (Ex.s1 none) [old]) =
    (.ok (.v .none), logged (Ex.s1 none)
      [old, .list [.v (.str 0 "[CHK] - Forbidden: "), .v (.str 0 "a"), .v (.str 0 " on "), .bound (.v (.obj 1)) "__repr__", .v (.str 0 "\n")]]) := by
  rw [C84_source]
  rfl

/-- A granted read at verbosity 2. -/
example : ∃ lines, Reports 2 .getattr "b" (.obj 1) (plainCheck (Ex.X .c) (hasattrX (Ex.X .c)) 30 (.obj 1) "b" (Ex.s1 (some (.ix 3)))).2.avail
      (plainCheck (Ex.X .c) (hasattrX (Ex.X .c)) 30 (.obj 1) "b" (Ex.s1 (some (.ix 3)))).1 lines ∧
    (run (watchLang (Ex.X .c) 2 (baseChecking (Ex.X .c) (hasattrX (Ex.X .c)) 30 31)) (mixinFn .getattr)
      [.sym "self", .v (.obj 1), .v (.str 5 "b")] (logged (Ex.s1 (some (.ix 3))) [old])).2.app.2 = [old] ++ lines.map lineText :=
  C84_lines (Ex.X .c) 2 _ .getattr (.obj 1) 5 "b" _ rfl (fun _ => ⟨.obj 7, rfl⟩) _ _

/-- The pure Python implementation: the line of a granted read. -/
example : (run (watchLang (Ex.X .py) 2 (sourceBase (Ex.X .py) Ex.c1)) (mixinFn .getattr)
      [.sym "self", .v (.obj 1), .v (.str 0 "b")] (logged (Ex.s1 (some (.ix 3))) [])).2.app.2 =
    [.list [.v (.str 0 "[CHK] + Granted getattr: "), .v (.str 0 "b"), .v (.str 0 " on "), .bound (.v (.obj 1)) "__repr__", .v (.str 0 "\n")]] := by
  rw [show Ex.c1 = .checker 60 30 31 from rfl, C84_source_py (Ex.X .py) rfl]
  rfl

example : (sourceWatch (Ex.X .c) (hasattrX (Ex.X .c)) (fun _ => some 2) .setattr Ex.c1 (.obj 1) "zz" (logged (Ex.s1 none) [])).1 =
    nothing (chkCheck (Ex.X .c) (hasattrX (Ex.X .c)) .setattr Ex.c1 (.obj 1) "zz" (Ex.s1 none)).1 :=
  (C84_transparent (Ex.X .c) _ _ .setattr Ex.c1 (.obj 1) "zz" (fun _ => ⟨.obj 7, rfl⟩) _ _).1

end ZS.SourceWatchEx
