import Verif.Props.SourceC1

/-!
# C87: the functions of `_proxy.c`, run from source
-/

namespace ZS.Props
open ZS.CM ZS.CS

variable {H : Host}

theorem glob_check_setattr (H : Host) : glob H "str_check_setattr" = .name "check_setattr" := rfl
theorem glob_check_getattr (H : Host) : glob H "str_check_getattr" = .name "check_getattr" := rfl
theorem glob_check (H : Host) : glob H "str_check" = .name "check" := rfl
theorem glob_proxy (H : Host) : glob H "str_proxy" = .name "proxy" := rfl

theorem same_mapping (o : Nat) : same H (.mapping o) (.ptr none) = some (H.noMapping o) := rfl
theorem same_slot (o : Nat) (f : Fld) : same H (.slot o f) (.ptr none) = some (!H.filled o f) := rfl

theorem C87_check (hH : H.Ok) (self name : Nat) (meth : String) (v : V) (hv : v.obj H = some name) (h : H.E.held self = true) :
    RunsAs H 3 "check" [.ptr (some self), .name meth, v] (CM.check H.E self meth name) .int := by
  refine .intro (g := Src.check) rfl rfl fun d hd => ?_
  have hc := hH.kept.checkerOf self h
  rcases obj_cases hv with rfl | ⟨s, rfl, rfl⟩ | ⟨s, rfl, rfl⟩ <;>
  · crun [Src.check, CM.check, use_held h, use_held hc, glob_check_setattr, same_mapping, same_slot, callSlot, List.map,
      V.plain, Host.filled]
    by_cases hn : H.noMapping (H.E.checkerOf self) = true
    · crun [hn, hH.assAbsent _ hn, ite_self]
      refine C.step ?_
      rintro (_ | r) <;> crun []
    · crun [hn, Bool.not_eq_true]
      by_cases hs : meth = "check_setattr"
      · crun [hs, ite_self]
        refine C.step ?_
        rintro (_ | r) <;> crun []
      · cases ha : H.E.assSlot (H.E.checkerOf self)
        · crun [hs]
          refine C.step ?_
          rintro (_ | r) <;> crun []
        · crun [hs, (C87_check_int _ _ _ hc).call hd, C.bind_pure]
        · crun [hs]

/-- `PROXY_RESULT` after the result has been found not to be NULL. -/
theorem protects (hH : H.Ok) (self r : Nat) {d : Nat} (hd : 2 ≤ d) :
    (if H.noMapping (H.E.checkerOf self) = false then
      if H.noMapping (H.E.checkerOf self) = true then stuck
      else
        if (!decide ¬H.E.subSlot (H.E.checkerOf self) = Slot.absent) = false then
          if H.noMapping (H.E.checkerOf self) = true then stuck
          else
            match H.E.subSlot (H.E.checkerOf self) with
            | Slot.native => do
              let v ← run H d "Checker_proxy" [V.ptr (some (H.E.checkerOf self)), V.ptr (some r)]
              decref H.E r
              pure v
            | Slot.foreign => do
              let p ← callObj H.E Call.api Fn.subscript [H.E.checkerOf self, r]
              decref H.E r
              pure (V.ptr p)
            | Slot.absent => stuck
        else do
          let p ← callObj H.E Call.api Fn.callMethod [H.E.checkerOf self, H.E.const "proxy", r]
          decref H.E r
          pure (V.ptr p)
    else do
      let p ← callObj H.E Call.api Fn.callMethod [H.E.checkerOf self, H.E.const "proxy", r]
      decref H.E r
      pure (V.ptr p)) =
    (protect H.E H.fuel self r >>= fun p => decref H.E r >>= fun _ => pure (V.ptr p) : C V) := by
  by_cases hn : H.noMapping (H.E.checkerOf self) = true
  · crun [hn, protect, hH.subAbsent _ hn]
  · cases hs : H.E.subSlot (H.E.checkerOf self)
    · crun [hn, hs, protect, ite_self]
    · crun [hn, hs, protect, (C87_proxy (.ptr (some (H.E.checkerOf self))) r).call hd, Bool.not_eq_true]
    · crun [hn, hs, protect, Bool.not_eq_true]

/-- Further facts for the functions of `_proxy.c`. -/
macro "prun" "[" ts:Lean.Parser.Tactic.simpLemma,* "]" : tactic =>
  `(tactic| crun [glob_check, glob_check_getattr, glob_check_setattr, glob_proxy, same_mapping, same_slot, callSlot, List.map, V.plain, Host.filled, $ts,*])

/-- The end of the functions that give their result to `PROXY_RESULT`. -/
macro "crun_result" hH:ident : tactic =>
  `(tactic| (
    rintro (_ | r)
    · prun [proxyResult]
    · prun [proxyResult]
      exact protects $hH _ r (by omega)))

/-- The value is an operation that runs as the program. -/
def Runs1 (H : Host) (n : Nat) (f : V) (op : Nat → C Ptr) : Prop :=
  ∀ d, n ≤ d → ∀ w k, apply H (run H d) false f [.ptr (some w)] k = op w >>= fun p => k (.ptr p)

def Runs2 (H : Host) (n : Nat) (f : V) (op : Nat → Nat → C Ptr) : Prop :=
  ∀ d, n ≤ d → ∀ x y k, apply H (run H d) false f [.ptr (some x), .ptr (some y)] k = op x y >>= fun p => k (.ptr p)

theorem C87_check1 (hH : H.Ok) (self opname : Nat) (v : V) (hv : v.obj H = some opname) (h : H.E.held self = true)
    {f : V} {op : Nat → C Ptr} {n : Nat} (hop : Runs1 H n f op) :
    RunsAs H (n + 4) "check1" [.ptr (some self), v, f] (CM.check1 H.E H.fuel self opname op) .ptr := by
  refine .intro (g := Src.check1) rfl rfl fun d hd => ?_
  have hc := hH.kept.checkerOf self h
  prun [Src.check1, CM.check1, use_held h, use_held hc, (C87_check hH self opname _ v hv h).call (by omega : 3 ≤ d), hop d (by omega)]
  refine C.step fun i => ?_
  by_cases hi : 0 ≤ i
  · prun [hi]
    refine C.step ?_
    crun_result hH
  · prun [hi]

theorem C87_check2 (hH : H.Ok) (self other opname ropname : Nat) (v rv : V) (hv : v.obj H = some opname) (hr : rv.obj H = some ropname)
    (h : H.E.held self = true) (ho : H.E.held other = true) {f : V} {op : Nat → Nat → C Ptr} {n : Nat} (hop : Runs2 H n f op) :
    RunsAs H (n + 4) "check2" [.ptr (some self), .ptr (some other), v, rv, f]
      (CM.check2 H.E H.fuel self other opname ropname op) .ptr := by
  refine .intro (g := Src.check2) rfl rfl fun d hd => ?_
  have hc := hH.kept.checkerOf self h
  have hco := hH.kept.checkerOf other ho
  prun [Src.check2, CM.check2, useAll, use_held h, use_held hc, use_held ho, use_held hco,
    (C87_check hH self opname _ v hv h).call (by omega : 3 ≤ d), (C87_check hH other ropname _ rv hr ho).call (by omega : 3 ≤ d),
    hop d (by omega)]
  by_cases hp : H.E.isProxy self = true
  · prun [hp]
    refine C.step fun i => ?_
    by_cases hi : 0 ≤ i
    · prun [hi]
      refine C.step ?_
      crun_result hH
    · prun [hi]
  · by_cases hq : H.E.isProxy other = true
    · prun [hp, hq]
      refine C.step fun i => ?_
      by_cases hi : 0 ≤ i
      · prun [hi]
        refine C.step ?_
        crun_result hH
      · prun [hi]
    · prun [hp, hq]

theorem C87_check2i (hH : H.Ok) (self other opname : Nat) (v : V) (hv : v.obj H = some opname)
    (h : H.E.held self = true) {f : V} {op : Nat → Nat → C Ptr} {n : Nat} (hop : Runs2 H n f op) :
    RunsAs H (n + 4) "check2i" [.ptr (some self), .ptr (some other), v, f]
      (CM.check2i H.E H.fuel self other opname op) .ptr := by
  refine .intro (g := Src.check2i) rfl rfl fun d hd => ?_
  have hc := hH.kept.checkerOf self h
  prun [Src.check2i, CM.check2i, use_held h, use_held hc, (C87_check hH self opname _ v hv h).call (by omega : 3 ≤ d), hop d (by omega)]
  refine C.step fun i => ?_
  by_cases hi : 0 ≤ i
  · prun [hi]
    refine C.step fun p => ?_
    by_cases hw : p = some (H.E.wrapped self)
    · subst hw
      prun []
    · prun [hw]
      revert p
      rintro (_ | r) hw
      · prun [proxyResult]
      · prun [proxyResult]
        exact protects hH _ r (by omega)
  · prun [hi]

theorem C87_richcompare (hH : H.Ok) (self other : Nat) (op : String) (h : H.E.held self = true) :
    RunsAs H 3 "proxy_richcompare" [.ptr (some self), .ptr (some other), .lit op] (proxyRichcompare H.E H.fuel op self other) .ptr := by
  refine .intro (g := Src.proxy_richcompare) rfl rfl fun d hd => ?_
  have hc := hH.kept.checkerOf self h
  prun [Src.proxy_richcompare, proxyRichcompare, use_held h, use_held hc]
  refine C.step fun p => ?_
  by_cases ht : p = some H.E.true_
  · prun [ht]
  · by_cases hf : p = some H.E.false_
    · prun [hf, ite_self]
    · prun [ht, hf]
      revert p
      rintro (_ | r) ht hf
      · prun [proxyResult]
      · prun [proxyResult]
        exact protects hH _ r (by omega)

theorem C87_iter (hH : H.Ok) (self : Nat) (h : H.E.held self = true) :
    RunsAs H 4 "proxy_iter" [.ptr (some self)] (proxyIter H.E H.fuel self) .ptr := by
  refine .intro (g := Src.proxy_iter) rfl rfl fun d hd => ?_
  have hc := hH.kept.checkerOf self h
  have hg : glob H "str___iter__" = .name "__iter__" := rfl
  prun [Src.proxy_iter, proxyIter, CM.check1, use_held h, use_held hc, hg, (C87_check hH self _ _ (.name "__iter__") rfl h).call hd]
  refine C.step fun i => ?_
  by_cases hi : 0 ≤ i
  · prun [hi]
    refine C.step ?_
    crun_result hH
  · prun [hi]

theorem C87_iternext (hH : H.Ok) (self : Nat) (h : H.E.held self = true) :
    RunsAs H 4 "proxy_iternext" [.ptr (some self)] (proxyIternext H.E H.fuel self) .ptr := by
  refine .intro (g := Src.proxy_iternext) rfl rfl fun d hd => ?_
  have hc := hH.kept.checkerOf self h
  have hg : glob H "str___next__" = .name "__next__" := rfl
  prun [Src.proxy_iternext, proxyIternext, use_held h, use_held hc, hg, (C87_check hH self _ _ (.name "__next__") rfl h).call hd]
  refine C.step fun i => ?_
  by_cases hi : 0 ≤ i
  · prun [hi]
    refine C.step ?_
    crun_result hH
  · prun [hi]

theorem C87_getattro (hH : H.Ok) (self name : Nat) (h : H.E.held self = true) :
    RunsAs H 4 "proxy_getattro" [.ptr (some self), .ptr (some name)] (proxyGetattro H.E H.fuel self name) .ptr := by
  refine .intro (g := Src.proxy_getattro) rfl rfl fun d hd => ?_
  have hc := hH.kept.checkerOf self h
  prun [Src.proxy_getattro, proxyGetattro, use_held h, use_held hc, CM.api, (C87_check hH self name _ (.ptr (some name)) rfl h).call hd]
  refine C.step fun i => ?_
  by_cases hi : 0 ≤ i
  · prun [hi]
    refine C.step ?_
    crun_result hH
  · prun [hi]

theorem C87_setattro (hH : H.Ok) (self name : Nat) (value : Ptr) (h : H.E.held self = true) :
    RunsAs H 4 "proxy_setattro" [.ptr (some self), .ptr (some name), .ptr value] (proxySetattro H.E self name value) .int := by
  refine .intro (g := Src.proxy_setattro) rfl rfl fun d hd => ?_
  cases value <;> prun [Src.proxy_setattro, proxySetattro, use_held h, (C87_check hH self name _ (.ptr (some name)) rfl h).call hd] <;>
  · refine C.step fun i => ?_
    by_cases hi : 0 ≤ i <;> prun [hi]

theorem C87_hash (self : Nat) (h : H.E.held self = true) :
    RunsAs H 1 "proxy_hash" [.ptr (some self)] (proxyHash H.E self) .int := by
  refine .intro (g := Src.proxy_hash) rfl rfl fun d hd => ?_
  prun [Src.proxy_hash, proxyHash, use_held h]

theorem C87_bool (self : Nat) (h : H.E.held self = true) :
    RunsAs H 1 "proxy_bool" [.ptr (some self)] (proxyBool H.E self) .int := by
  refine .intro (g := Src.proxy_bool) rfl rfl fun d hd => ?_
  prun [Src.proxy_bool, proxyBool, use_held h]

theorem C87_call (hH : H.Ok) (self args : Nat) (kwds : Ptr) (h : H.E.held self = true) :
    RunsAs H 4 "proxy_call" [.ptr (some self), .ptr (some args), .ptr kwds] (proxyCall H.E H.fuel self args kwds) .ptr := by
  refine .intro (g := Src.proxy_call) rfl rfl fun d hd => ?_
  have hc := hH.kept.checkerOf self h
  have hg : glob H "str___call__" = .name "__call__" := rfl
  prun [Src.proxy_call, proxyCall, CM.check1, use_held h, use_held hc, hg, (C87_check hH self _ _ (.name "__call__") rfl h).call hd]
  refine C.step fun i => ?_
  by_cases hi : 0 ≤ i
  · prun [hi]
    refine C.step ?_
    crun_result hH
  · prun [hi]

end ZS.Props
