import Verif.Props.SourceOps
import Verif.Props.DeployPy

/-!
# C78: what the Python source carries out is what the configuration permits

`SourceSession` is `Spec.SessionPy` with every operation run by the interpreter on the text of
proxy.py and checker.py.
-/

namespace ZS.Props
open ZS ZS.PyC ZS.Src ZS.Spec
variable {A : Type}

/-- An operation on any value.  When a proxy stands on the left of an operator its method is run,
otherwise that of the proxy on the right; no method of a modulus is ever run. -/
def sourceOp (X : Ctx A) (p : Val) (op : POp) : M A PV :=
  match p, op with
  | .proxy _ _ _, .binR b (.proxy i w c) => runtime X i w c (.binL b p)
  | .proxy _ _ _, .rpow (.proxy i w c) m => runtime X i w c (.pow p m)
  | .proxy _ _ _, .pow3 (.proxy i w c) y => runtime X i w c (.pow y p)
  | .proxy _ _ _, .pow3 x (.proxy i w c) => runtime X i w c (.rpow x p)
  | .proxy i w c, op => runtime X i w c op
  | _, _ => M.throw .typeError

/-- `in` is the operator whose result the runtime turns into a truth value. -/
def isIn : POp → Bool
  | .contains _ => true
  | _ => false

/-- A step of untrusted code that is careful, run on the source; or of anybody else. -/
inductive SourceStep (X : Ctx A) : St A × List Val → St A × List Val → Prop
  | returns {s held p op v s'} : p ∈ held → Careful op → (∀ a ∈ opArgs op, a ∈ held) → isIn op = false →
      sourceOp X p op s = (.ok (.v v), s') → SourceStep X (s, held) (s', v :: held)
  | answers {s held p op r s'} (b : Bool) : p ∈ held → Careful op → (∀ a ∈ opArgs op, a ∈ held) → isIn op = true →
      sourceOp X p op s = (.ok r, s') → SourceStep X (s, held) (s', .bool b :: held)
  | raises {s held p op e s'} : p ∈ held → Careful op → (∀ a ∈ opArgs op, a ∈ held) →
      sourceOp X p op s = (.err e, s') → SourceStep X (s, held) (s', held)
  | constant {s held v} : Basic v → SourceStep X (s, held) (s, v :: held)
  | elsewhere {s held s'} : protection s' = protection s → s'.ovW = s.ovW → s'.ovC = s.ovC →
      SourceStep X (s, held) (s', held)

/-- Any number of steps. -/
inductive SourceSession (X : Ctx A) : St A × List Val → St A × List Val → Prop
  | nil {a} : SourceSession X a a
  | cons {a b c} : SourceSession X a b → SourceStep X b c → SourceSession X a c

/-- Running the source of an operation is running the model of it. -/
theorem C78_source (X : Ctx A) (hi : X.impl = .py) (p : Val) (op : POp) (h : isIn op = false) :
    sourceOp X p op = val (pop X p op) := by
  cases p with
  | proxy id w c =>
    have hp : pop X (.proxy id w c) op = popPy X id w c op := by simp only [pop, hi]
    rw [hp]
    have hop := C78_ops X id w c op
    cases op with
    | binR b o =>
      cases o with
      | proxy i w' c' => exact C78_ops X i w' c' (.binL b (.proxy id w c)) rfl
      | _ => exact C78_ops X id w c (.binR b _) rfl
    | rpow x m =>
      cases x with
      | proxy i w' c' => exact C78_ops X i w' c' (.pow (.proxy id w c) m) rfl
      | _ => exact C78_ops X id w c (.rpow _ m) rfl
    | pow3 x y =>
      cases x with
      | proxy i w' c' => exact C78_ops X i w' c' (.pow y (.proxy id w c)) rfl
      | _ =>
        cases y with
        | proxy i w' c' => exact C78_ops X i w' c' (.rpow _ (.proxy id w c)) rfl
        | _ => rfl
    | contains x => cases h
    | _ => exact hop rfl
  | _ => rfl

/-- `in` included, but for the value. -/
theorem C78_source_dropped (X : Ctx A) (hi : X.impl = .py) (p : Val) (op : POp) :
    dropped (sourceOp X p op) = dropped (val (pop X p op)) := by
  cases hin : isIn op with
  | false => rw [C78_source X hi p op hin]
  | true =>
    cases op with
    | contains x =>
      cases p with
      | proxy id w c =>
        have hp : pop X (.proxy id w c) (.contains x) = popPy X id w c (.contains x) := by simp only [pop, hi]
        rw [hp]
        exact C78_contains X id w c x
      | _ => rfl
    | _ => cases hin

theorem dropped_state (x : M A PV) (s : St A) : (dropped x s).2 = (x s).2 := by
  show (M.bind x _ s).2 = _
  unfold M.bind
  rcases x s with ⟨r, s'⟩
  cases r <;> rfl

theorem val_state (x : M A Val) (s : St A) : (val x s).2 = (x s).2 := by
  show (M.bind x _ s).2 = _
  unfold M.bind
  rcases x s with ⟨r, s'⟩
  cases r <;> rfl

theorem val_ok {x : M A Val} {s s' : St A} {v : Val} (h : x s = (.ok v, s')) : val x s = (.ok (.v v), s') := by
  show M.bind x _ s = _
  unfold M.bind
  rw [h]
  rfl

/-- The state, and with it all that has been carried out. -/
theorem C78_source_state (X : Ctx A) (hi : X.impl = .py) (p : Val) (op : POp) (s : St A) :
    (sourceOp X p op s).2 = (pop X p op s).2 := by
  rw [← dropped_state, C78_source_dropped X hi, dropped_state, val_state]

/-! ## Sessions -/

theorem source_ok {X : Ctx A} (hi : X.impl = .py) {p : Val} {op : POp} {s s' : St A} {r : PV}
    (h : sourceOp X p op s = (.ok r, s')) : ∃ v, pop X p op s = (.ok v, s') ∧ (isIn op = false → r = .v v) := by
  have hs := C78_source_state X hi p op s
  have hd : dropped (sourceOp X p op) s = (.ok (.v .none), s') := by
    show M.bind (sourceOp X p op) _ s = _
    unfold M.bind
    rw [h]
    rfl
  rw [C78_source_dropped X hi] at hd
  rcases hp : pop X p op s with ⟨r', s1⟩
  have hs1 : s' = s1 := by
    rw [h, hp] at hs
    exact hs
  cases r' with
  | ok v =>
    refine ⟨v, by rw [hs1], fun hin => ?_⟩
    have := C78_source X hi p op hin
    rw [this] at h
    have hv : val (pop X p op) s = (.ok (.v v), s1) := by
      show M.bind (pop X p op) _ s = _
      unfold M.bind
      rw [hp]
      rfl
    rw [hv] at h
    cases h
    rfl
  | err e =>
    change M.bind (M.bind (pop X p op) _) _ s = _ at hd
    unfold M.bind at hd
    rw [hp] at hd
    cases hd
  | diverge =>
    change M.bind (M.bind (pop X p op) _) _ s = _ at hd
    unfold M.bind at hd
    rw [hp] at hd
    cases hd

theorem source_err {X : Ctx A} (hi : X.impl = .py) {p : Val} {op : POp} {s s' : St A} {e : Exn}
    (h : sourceOp X p op s = (.err e, s')) : pop X p op s = (.err e, s') := by
  have hs := C78_source_state X hi p op s
  have hd : dropped (sourceOp X p op) s = (.err e, s') := by
    show M.bind (sourceOp X p op) _ s = _
    unfold M.bind
    rw [h]
  rw [C78_source_dropped X hi] at hd
  change M.bind (M.bind (pop X p op) _) _ s = _ at hd
  unfold M.bind at hd
  rw [h] at hs
  rcases hp : pop X p op s with ⟨r', s1⟩
  rw [hp] at hd hs
  cases r' <;> cases hd
  rfl

/-- A session on the source is one of the model, in which untrusted code may hold more. -/
theorem C78_session (X : Ctx A) (hi : X.impl = .py) {a b : St A × List Val} (h : SourceSession X a b) :
    ∃ held, SessionPy X a (b.1, held) ∧ ∀ v ∈ b.2, v ∈ held := by
  induction h with
  | nil => exact ⟨_, .nil, fun _ h => h⟩
  | cons _ hstep ih =>
    obtain ⟨held, hses, hsub⟩ := ih
    cases hstep with
    | returns hp hc ha hin hrun =>
      obtain ⟨v, hpop, hv⟩ := source_ok hi hrun
      cases hv hin
      refine ⟨_, .cons hses (.returns (hsub _ hp) hc (fun x hx => hsub _ (ha x hx)) hpop), fun x hx => ?_⟩
      cases hx with
      | head => exact .head _
      | tail _ hx => exact .tail _ (hsub _ hx)
    | answers b hp hc ha hin hrun =>
      obtain ⟨v, hpop, _⟩ := source_ok hi hrun
      refine ⟨_, .cons (.cons hses (.returns (hsub _ hp) hc (fun x hx => hsub _ (ha x hx)) hpop))
        (.constant (basic_bool b)), fun x hx => ?_⟩
      cases hx with
      | head => exact .head _
      | tail _ hx => exact .tail _ (.tail _ (hsub _ hx))
    | raises hp hc ha hrun =>
      exact ⟨held, .cons hses (.raises (hsub _ hp) hc (fun x hx => hsub _ (ha x hx)) (source_err hi hrun)), hsub⟩
    | constant hv =>
      refine ⟨_, .cons hses (.constant hv), fun x hx => ?_⟩
      cases hx with
      | head => exact .head _
      | tail _ hx => exact .tail _ (hsub _ hx)
    | elsewhere h1 h2 h3 => exact ⟨held, .cons hses (.elsewhere h1 h2 h3), hsub⟩

/-- **C78** As `C72_configured`, with every operation run by the interpreter on the source of
proxy.py and checker.py: what the Python source carries out is what the configuration permits. -/
theorem C78_configured (E : Ext) (a : A) (l : List Directive) (hr : Ready l (initial E a))
    (hl : ∀ d ∈ l, ∀ e, ¬ Raises d e) :
    ∃ s0, configure l (initial E a) = (.ok (), s0) ∧ ∃ σ, Effects l (storeOf (initial E a)) σ ∧
      (∀ τ, Effects l (storeOf (initial E a)) τ → τ = σ) ∧
      ∀ X : Ctx A, X.impl = .py → ReliesPy X.W s0 → ∀ start held s held', protection start = protection s0 → Untouched start →
        (∀ v ∈ held, Issued X.W s0.reg v) → SourceSession X (start, held) (s, held') →
        ∀ p ∈ held', IsProxy p → ∀ op, (∀ v ∈ opArgs op, v ∈ held') →
          NewEvents s (sourceOp X p op s).2 (Only (PermittedPy X σ s p op)) := by
  obtain ⟨s0, h1, σ, h2, h3, h4⟩ := C72_configured E a l hr hl
  refine ⟨s0, h1, σ, h2, h3, fun X hi hX start held s held' hst hun hh hses p hp hpp op harg => ?_⟩
  obtain ⟨hd, hs, hsub⟩ := C78_session X hi hses
  rw [C78_source_state X hi]
  exact h4 X hi hX start held s hd hst hun hh hs p (hsub _ hp) hpp op fun v hv => hsub _ (harg v hv)

/-- **C78** As `C72_carried_out`: what the declarations and the interaction permit, the source
carries out. -/
theorem C78_carried_out (E : Ext) (a : A) (l : List Directive) (hr : Ready l (initial E a))
    (hl : ∀ d ∈ l, ∀ e, ¬ Raises d e) :
    ∃ s0, configure l (initial E a) = (.ok (), s0) ∧ ∃ σ, Effects l (storeOf (initial E a)) σ ∧
      (∀ τ, Effects l (storeOf (initial E a)) τ → τ = σ) ∧
      ∀ X : Ctx A, X.impl = .py → ReliesPy X.W s0 → ∀ start held s held', protection start = protection s0 → Untouched start →
        (∀ v ∈ held, Issued X.W s0.reg v) → SourceSession X (start, held) (s, held') →
        ∀ p ∈ held', IsProxy p → ∀ op, (∀ v ∈ opArgs op, v ∈ held') →
          ∀ q, need .py p op = some q → Direct op →
            ∀ i w c, q.actor = .proxy i w c → PermitsPy X σ s w (isWrite q.kind) q.name →
              ∃ es, (sourceOp X p op s).2.trace = s.trace ++ es ∧ .performed (q.carry w) ∈ es := by
  obtain ⟨s0, h1, σ, h2, h3, h4⟩ := C72_carried_out E a l hr hl
  refine ⟨s0, h1, σ, h2, h3, fun X hi hX start held s held' hst hun hh hses p hp hpp op harg => ?_⟩
  obtain ⟨hd, hs, hsub⟩ := C78_session X hi hses
  rw [C78_source_state X hi]
  exact h4 X hi hX start held s hd hst hun hh hs p (hsub _ hp) hpp op fun v hv => hsub _ (harg v hv)

/-! ## A case -/

namespace Shop

/-- Reading `secret` through the interpreter. -/
theorem source_step : sourceOp (Ex.X .py) thing (.getattr "secret" false) now = (.ok (.v innerPy), s2) := by
  rw [C78_source _ rfl _ _ rfl]
  exact val_ok step2

/-- A session on the source, in which the code obtains a proxy of a further object and then somebody
else does something. -/
theorem source_session : SourceSession (Ex.X .py) (now, [thing]) ({ s2 with nextId := 200 }, [innerPy, thing]) :=
  .cons (.cons .nil (.returns (op := .getattr "secret" false) (List.mem_singleton.mpr rfl) (fun h => by cases h)
    (by intro _ h; cases h) rfl source_step))
    (.elsewhere rfl rfl rfl)

end Shop

end ZS.Props
