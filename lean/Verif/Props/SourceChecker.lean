import Verif.Source.Checker
import Verif.Lemmas.PyRun
import Verif.Model.Access

/-!
# C76: the source of checker.py does what the model says

Each theorem runs the syntax tree of a function, as tools/pysource.py reads it from the file, and
shows that the run is the model's function: for all arguments, in all states, with all worlds.
-/

namespace ZS.Props
open ZS ZS.PyC ZS.Src
variable {A : Type}
set_option maxHeartbeats 1000000

theorem lookup_none {d : PyDict Name Val} {n : Name} (h : lookupPy d n = none) : (d.get? n).getD .none = .none := by
  unfold lookupPy at h
  split at h <;> simp_all
theorem lookup_some {d : PyDict Name Val} {n : Name} {p : Val} (h : lookupPy d n = some p) :
    (d.get? n).getD .none = p ∧ p ≠ .none := by
  unfold lookupPy at h
  split at h
  · cases h
  · rename_i h1
    refine ⟨by rw [h]; rfl, ?_⟩
    rintro rfl
    exact h1 h
theorem lookup_empty {d : PyDict Name Val} (n : Name) (h : d.isEmpty = true) : d.get? n = none := by
  cases d with
  | nil => rfl
  | cons a l => cases h
theorem readDict_eq {x : Val} {g st : Nat} (hx : checkerDicts x = some (g, st)) : (readDict x : M A PV) = pure (.dict g) := by
  unfold readDict; rw [hx]
theorem writeDict_eq {x : Val} {g st : Nat} (hx : checkerDicts x = some (g, st)) : (writeDict x : M A PV) = pure (.dict st) := by
  unfold writeDict; rw [hx]

/-! ## The methods of a checker -/

/-- `CheckerPy.permission_id`, also of a `CombinedChecker`. -/
theorem C76_permission_id (X : Ctx A) (x : Val) (g st a : Nat) (hx : checkerDicts x = some (g, st)) (n : Name) (s : St A) :
    run (lang X own) Checker.CheckerPy.permission_id [.v x, .v (.str a n)] s =
      (.ok (.v ((permissionId s x n).getD .none)), s) := by
  refine fork_run ?_
  have hp : permissionId s x n = lookupPy (s.dicts g) n := by
    cases x <;> cases hx <;> rfl
  rw [hp]
  pysteps [Checker.CheckerPy.permission_id, readDict_eq hx]
  cases hl : lookupPy (s.dicts g) n with
  | none => rw [lookup_none hl]; rfl
  | some p => rw [(lookup_some hl).1]; rfl

/-- `CheckerPy.setattr_permission_id`. -/
theorem C76_setattr_permission_id (X : Ctx A) (x : Val) (g st a : Nat) (hx : checkerDicts x = some (g, st)) (n : Name) (s : St A) :
    run (lang X own) Checker.CheckerPy.setattr_permission_id [.v x, .v (.str a n)] s =
      (.ok (.v ((setattrPermissionId s x n).getD .none)), s) := by
  refine fork_run ?_
  have hp : setattrPermissionId s x n = lookupPy (s.dicts st) n := by
    cases x <;> cases hx <;> rfl
  rw [hp]
  cases he : (s.dicts st).isEmpty with
  | true =>
    pysteps [Checker.CheckerPy.setattr_permission_id, writeDict_eq hx, he]
    unfold lookupPy
    rw [lookup_empty n he]
    rfl
  | false =>
    pysteps [Checker.CheckerPy.setattr_permission_id, writeDict_eq hx, he]
    cases hl : lookupPy (s.dicts st) n with
    | none => rw [lookup_none hl]; rfl
    | some p => rw [(lookup_some hl).1]; rfl

/-- `CheckerPy.check`, which is also `check_getattr` (checker.py:278). -/
theorem C76_check (X : Ctx A) (x : Val) (g st a : Nat) (hx : checkerDicts x = some (g, st)) (o : Val) (n : Name) :
    run (lang X own) Checker.CheckerPy.check [.v x, .v o, .v (.str a n)] =
      unit (plainCheckPy X (hasattrX X) g o n) := by
  apply ext_fork
  intro s
  unfold plainCheckPy askInteraction
  cases hl : lookupPy (s.dicts g) n with
  | none =>
    have hn := lookup_none hl
    by_cases ha : n ∈ s.avail
    · pysteps [Checker.CheckerPy.check, readDict_eq hx, hl, hn, ha]
    · by_cases hi : n = "__iter__"
      · subst hi
        pysteps [Checker.CheckerPy.check, readDict_eq hx, hl, hn, ha]
        refine fork_ext (fun b s' hb => ?_) (fun e s' he => ?_)
        · cases b <;> pysteps
        · pysteps
      · pysteps [Checker.CheckerPy.check, readDict_eq hx, hl, hn, ha, hi]
  | some p =>
    obtain ⟨hg, hp⟩ := lookup_some hl
    by_cases hpub : p = publicV
    · subst hpub
      pysteps [Checker.CheckerPy.check, readDict_eq hx, hl, hg, hp]
    · cases ht : (s.threads X.tid).interaction with
      | none =>
        pysteps [Checker.CheckerPy.check, readDict_eq hx, hl, hg, hp, hpub, ht]
      | some ix =>
        pysteps [Checker.CheckerPy.check, readDict_eq hx, hl, hg, hp, hpub, ht]
        refine fork_ext (fun b s' hb => ?_) (fun e s' he => ?_)
        · cases hb : truthy X.W b <;> pysteps [hb]
        · pysteps

/-- `CheckerPy.check_setattr`. -/
theorem C76_check_setattr (X : Ctx A) (x : Val) (g st a : Nat) (hx : checkerDicts x = some (g, st)) (o : Val) (n : Name) :
    run (lang X own) Checker.CheckerPy.check_setattr [.v x, .v o, .v (.str a n)] =
      unit (plainSetattrPy X st o n) := by
  apply ext_fork
  intro s
  unfold plainSetattrPy askInteraction
  cases hem : (s.dicts st).isEmpty with
  | true => pysteps [Checker.CheckerPy.check_setattr, writeDict_eq hx, hem]
  | false =>
    cases hl : lookupPy (s.dicts st) n with
    | none =>
      have hn := lookup_none hl
      pysteps [Checker.CheckerPy.check_setattr, writeDict_eq hx, hem, hl, hn]
    | some p =>
      obtain ⟨hg, hp⟩ := lookup_some hl
      by_cases hpub : p = publicV
      · subst hpub
        pysteps [Checker.CheckerPy.check_setattr, writeDict_eq hx, hem, hl, hg, hp]
      · cases ht : (s.threads X.tid).interaction with
        | none =>
          pysteps [Checker.CheckerPy.check_setattr, writeDict_eq hx, hem, hl, hg, hp, hpub, ht]
        | some ix =>
          pysteps [Checker.CheckerPy.check_setattr, writeDict_eq hx, hem, hl, hg, hp, hpub, ht]
          refine fork_ext (fun b s' hb => ?_) (fun e s' he => ?_)
          · cases hb : truthy X.W b <;> pysteps [hb]
          · pysteps

/-- `CheckerPy.proxy`. -/
theorem C76_proxy (X : Ctx A) (x v : Val) :
    run (lang X own) Checker.CheckerPy.proxy [.v x, .v v] = val (proxyPy X v) := by
  apply ext_fork
  intro s
  unfold proxyPy
  cases hv : v.isProxy with
  | true => pysteps [Checker.CheckerPy.proxy, hv]
  | false =>
    pysteps [Checker.CheckerPy.proxy, hv]
    refine fork_ext (fun c s' hc => ?_) (fun e s' he => ?_)
    · by_cases h : c = .none
      · subst h
        pysteps
        refine fork_ext (fun c s' hc => ?_) (fun e s' he => ?_)
        · by_cases h : c = .none
          · subst h; pysteps
          · pysteps [h]
            refine fork_ext (fun c s' hc => ?_) (fun e s' he => ?_) <;> pysteps
        · pysteps
      · pysteps [h]
        refine fork_ext (fun c s' hc => ?_) (fun e s' he => ?_) <;> pysteps
    · pysteps

theorem fork_combine {β : Type} (a b : M A Unit) (k : Unit → St A → Res β × St A) (h : Exn → St A → Res β × St A) (s : St A) :
    fork (combine a b) k h s = fork a k (fun e s' => if e.isForbidden then fork b k h s'
      else if e.isUnauthorized then fork b k (fun e2 s2 => if e2.isForbidden then h e s2 else h e2 s2) s'
      else h e s') s := by
  unfold fork combine
  cases ha : a s with
  | mk r s1 =>
    cases r with
    | ok u => rfl
    | diverge => rfl
    | err e =>
      dsimp only
      cases hf : e.isForbidden with
      | true => rfl
      | false =>
        cases hu : e.isUnauthorized with
        | false => rfl
        | true =>
          simp only [Bool.false_eq_true, if_false, if_true]
          unfold M.tryCatch
          cases hb : b s1 with
          | mk r2 s2 =>
            cases r2 with
            | err e2 => cases h2 : e2.isForbidden <;> simp [h2, M.throw]
            | _ => rfl

/-- `CombinedChecker.check`, which is also `check_getattr` (checker.py:576). -/
theorem C76_combined_check (X : Ctx A) (i g st a : Nat) (c2 o : Val) (n : Name) :
    run (lang X own) Checker.CombinedChecker.check [.v (.combined i g st c2), .v o, .v (.str a n)] =
      unit (chkCheck X (hasattrX X) .check (.combined i g st c2) o n) := by
  apply ext_fork
  intro s
  rw [show chkCheck X (hasattrX X) .check (.combined i g st c2) o n =
    combine (plainCheck X (hasattrX X) g o n) (chkCheck X (hasattrX X) .check c2 o n) from by simp only [chkCheck]]
  pysteps [Checker.CombinedChecker.check, fork_combine]
  refine fork_ext (fun c s' hc => ?_) (fun e s' he => ?_)
  · pysteps
  · cases hf : e.isForbidden with
    | true =>
      pysteps [hf]
      refine fork_ext (fun c s' hc => ?_) (fun e s' he => ?_) <;> pysteps
    | false =>
      cases hu : e.isUnauthorized with
      | false => pysteps [hf, hu]
      | true =>
        pysteps [hf, hu]
        refine fork_ext (fun c s' hc => ?_) (fun e2 s' he => ?_)
        · pysteps
        · cases h2 : e2.isForbidden <;> pysteps [h2]

/-- `CombinedChecker.check_setattr`. -/
theorem C76_combined_check_setattr (X : Ctx A) (i g st a : Nat) (c2 o : Val) (n : Name) :
    run (lang X own) Checker.CombinedChecker.check_setattr [.v (.combined i g st c2), .v o, .v (.str a n)] =
      unit (chkCheck X (hasattrX X) .setattr (.combined i g st c2) o n) := by
  apply ext_fork
  intro s
  rw [show chkCheck X (hasattrX X) .setattr (.combined i g st c2) o n =
    combine (plainSetattr X st o n) (chkCheck X (hasattrX X) .setattr c2 o n) from by simp only [chkCheck]]
  pysteps [Checker.CombinedChecker.check_setattr, fork_combine]
  refine fork_ext (fun c s' hc => ?_) (fun e s' he => ?_)
  · pysteps
  · cases hf : e.isForbidden with
    | true =>
      pysteps [hf]
      refine fork_ext (fun c s' hc => ?_) (fun e s' he => ?_) <;> pysteps
    | false =>
      cases hu : e.isUnauthorized with
      | false => pysteps [hf, hu]
      | true =>
        pysteps [hf, hu]
        refine fork_ext (fun c s' hc => ?_) (fun e2 s' he => ?_)
        · pysteps
        · cases h2 : e2.isForbidden <;> pysteps [h2]

end ZS.Props
