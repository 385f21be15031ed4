import Verif.Props.SourceChecker2

/-!
# C76, concluded: the functions of checker.py that nothing in the package calls
-/

namespace ZS.Props
open ZS ZS.PyC ZS.Src
variable {A : Type}
set_option maxHeartbeats 1000000

theorem fork_gives {α β : Type} {x : M A α} {a : α} {s t : St A} {k : α → St A → Res β × St A} {h : Exn → St A → Res β × St A} (hx : x s = (.ok a, t)) :
    fork x k h s = k a t := by unfold fork; rw [hx]
theorem fork_fails {α β : Type} {x : M A α} {e : Exn} {s t : St A} {k : α → St A → Res β × St A} {h : Exn → St A → Res β × St A} (hx : x s = (.err e, t)) :
    fork x k h s = h e t := by unfold fork; rw [hx]

/-- `_instanceChecker` (checker.py:705-706): the checker defined for what the object calls its class, or the default one; nothing is defined by asking. -/
theorem C76_instanceChecker (X : Ctx A) (x : Val) (s t : St A) :
    (∀ c k, probe X (.getattr x "__class__") s = (.ok c, t) → definable c = some k →
      run (lang X own) Checker._instanceChecker [.v x] s = (.ok (.v ((t.reg.get? k).getD defaultChecker)), t))
    ∧ (∀ e, probe X (.getattr x "__class__") s = (.err e, t) → run (lang X own) Checker._instanceChecker [.v x] s = (.err e, t)) := by
  have hg : (lglob "_defaultChecker" : M A PV) = pure (.v defaultChecker) := rfl
  constructor
  · intro c k hc hk
    refine fork_run ?_
    pysteps [Checker._instanceChecker, hg]
    rw [fork_gives hc]
    cases c <;> cases hk <;> pysteps [hg] <;> rfl
  · intro e hc
    refine fork_run ?_
    pysteps [Checker._instanceChecker, hg]
    rw [fork_fails hc]
    rfl

/-- `_Sequence` (checker.py:821-826): its methods only raise. -/
theorem C76_Sequence (X : Ctx A) (x i : Val) (s : St A) :
    run (lang X own) Checker._Sequence.__len__ [.v x] s = (.err .notImplementedError, s)
    ∧ run (lang X own) Checker._Sequence.__getitem__ [.v x, .v i] s = (.err .notImplementedError, s) := by
  constructor
  · refine fork_run ?_
    pysteps [Checker._Sequence.__len__]
    rfl
  · refine fork_run ?_
    pysteps [Checker._Sequence.__getitem__]
    rfl

/-- An object of a class with a checker, of one without, and one that does not tell its class. -/
example (X : Ctx A) (s : St A) (x c : Val) (h : s.reg = [(.ty "T", c)]) :
    (run (lang { X with W := { X.W with apply := fun _ s => (.ok (.type "T"), s) } } own) Checker._instanceChecker [.v x] s).1 = .ok (.v c)
    ∧ (run (lang { X with W := { X.W with apply := fun _ s => (.ok (.type "U"), s) } } own) Checker._instanceChecker [.v x] s).1 = .ok (.v defaultChecker)
    ∧ (run (lang { X with W := { X.W with apply := fun _ s => (.err .typeError, s) } } own) Checker._instanceChecker [.v x] s).1 = .err .typeError := by
  refine ⟨?_, ?_, ?_⟩
  · rw [(C76_instanceChecker { X with W := { X.W with apply := fun _ s => (.ok (.type "T"), s) } } x s _).1 _ _ rfl rfl]
    show Res.ok (PV.v ((s.reg.get? (.ty "T")).getD defaultChecker)) = _
    rw [h]; rfl
  · rw [(C76_instanceChecker { X with W := { X.W with apply := fun _ s => (.ok (.type "U"), s) } } x s _).1 _ _ rfl rfl]
    show Res.ok (PV.v ((s.reg.get? (.ty "U")).getD defaultChecker)) = _
    rw [h]; rfl
  · rw [(C76_instanceChecker { X with W := { X.W with apply := fun _ s => (.err .typeError, s) } } x s _).2 _ rfl]

end ZS.Props
