import Verif.Props.SourceC2

/-!
# C87: the rest of `_proxy.c`, run from source
-/

namespace ZS.Props
open ZS.CM ZS.CS

variable {H : Host}

theorem C87_getitem (hH : H.Ok) (self key : Nat) (h : H.E.held self = true) :
    RunsAs H 4 "proxy_getitem" [.ptr (some self), .ptr (some key)] (proxyGetitem H.E H.fuel self key) .ptr := by
  refine .intro (g := Src.proxy_getitem) rfl rfl fun d hd => ?_
  have hc := hH.kept.checkerOf self h
  have hg : glob H "str___getitem__" = .name "__getitem__" := rfl
  prun [Src.proxy_getitem, proxyGetitem, CM.check1, use_held h, use_held hc, hg, (C87_check hH self _ _ (.name "__getitem__") rfl h).call hd]
  refine C.step fun i => ?_
  by_cases hi : 0 ≤ i
  · prun [hi]
    refine C.step ?_
    crun_result hH
  · prun [hi]

theorem C87_setitem (hH : H.Ok) (self key : Nat) (value : Ptr) (h : H.E.held self = true) :
    RunsAs H 4 "proxy_setitem" [.ptr (some self), .ptr (some key), .ptr value] (proxySetitem H.E self key value) .int := by
  refine .intro (g := Src.proxy_setitem) rfl rfl fun d hd => ?_
  have hg : glob H "str___setitem__" = .name "__setitem__" := rfl
  have hg' : glob H "str___delitem__" = .name "__delitem__" := rfl
  cases value <;> prun [Src.proxy_setitem, proxySetitem, use_held h, hg, hg', (C87_check hH self _ _ (.name "__setitem__") rfl h).call hd,
    (C87_check hH self _ _ (.name "__delitem__") rfl h).call hd] <;>
  · refine C.step fun i => ?_
    by_cases hi : 0 ≤ i <;> prun [hi]

theorem C87_igetitem (hH : H.Ok) (self : Nat) (i : Int) (h : H.E.held self = true) :
    RunsAs H 5 "proxy_igetitem" [.ptr (some self), .int i] (proxyIgetitem H.E H.fuel self i) .ptr := by
  refine .intro (g := Src.proxy_igetitem) rfl rfl fun d hd => ?_
  prun [Src.proxy_igetitem, proxyIgetitem]
  refine C.step ?_
  rintro (_ | key)
  · prun []
  · prun [(C87_getitem hH self key h).call hd]

theorem C87_isetitem (hH : H.Ok) (self : Nat) (i : Int) (value : Ptr) (h : H.E.held self = true) :
    RunsAs H 5 "proxy_isetitem" [.ptr (some self), .int i, .ptr value] (proxyIsetitem H.E self i value) .int := by
  refine .intro (g := Src.proxy_isetitem) rfl rfl fun d hd => ?_
  prun [Src.proxy_isetitem, proxyIsetitem]
  refine C.step ?_
  rintro (_ | key)
  · prun []
  · prun [(C87_setitem hH self key value h).call hd]

theorem C87_contains (hH : H.Ok) (self value : Nat) (h : H.E.held self = true) :
    RunsAs H 4 "proxy_contains" [.ptr (some self), .ptr (some value)] (proxyContains H.E self value) .int := by
  refine .intro (g := Src.proxy_contains) rfl rfl fun d hd => ?_
  have hg : glob H "str___contains__" = .name "__contains__" := rfl
  prun [Src.proxy_contains, proxyContains, use_held h, hg, (C87_check hH self _ _ (.name "__contains__") rfl h).call hd]
  refine C.step fun i => ?_
  by_cases hi : 0 ≤ i <;> prun [hi]

theorem C87_length (hH : H.Ok) (self : Nat) (h : H.E.held self = true) :
    RunsAs H 4 "proxy_length" [.ptr (some self)] (proxyLength H.E self) .int := by
  refine .intro (g := Src.proxy_length) rfl rfl fun d hd => ?_
  have hg : glob H "str___len__" = .name "__len__" := rfl
  prun [Src.proxy_length, proxyLength, use_held h, hg, (C87_check hH self _ _ (.name "__len__") rfl h).call hd]
  refine C.step fun i => ?_
  by_cases hi : 0 ≤ i <;> prun [hi]

theorem C87_length_hint (self : Nat) (h : H.E.held self = true) :
    RunsAs H 1 "proxy_length_hint" [.ptr (some self)] (proxyLengthHint H.E self) .ptr := by
  refine .intro (g := Src.proxy_length_hint) rfl rfl fun d hd => ?_
  prun [Src.proxy_length_hint, proxyLengthHint, use_held h]
  refine C.step ?_
  rintro (_ | r)
  · prun []
    refine C.step fun b => ?_
    cases b <;> prun []
  · prun []

theorem C87_pow (hH : H.Ok) (self other : Nat) (modulus : Ptr) (h : H.E.held self = true) (ho : H.E.held other = true)
    (hm : ∀ md, modulus = some md → H.E.held md = true) :
    RunsAs H 4 "proxy_pow" [.ptr (some self), .ptr (some other), .ptr modulus] (proxyPow H.E H.fuel self other modulus) .ptr := by
  refine .intro (g := Src.proxy_pow) rfl rfl fun d hd => ?_
  have hc := hH.kept.checkerOf self h
  have hco := hH.kept.checkerOf other ho
  have hg : glob H "str___pow__" = .name "__pow__" := rfl
  have hg' : glob H "str___rpow__" = .name "__rpow__" := rfl
  have hg3 : glob H "str___3pow__" = .name "__3pow__" := rfl
  have hu : useAll H.E ([self, other] ++ modulus.toList) = pure () := by
    cases modulus with
    | none => simp only [Option.toList, List.append_nil, useAll, use_held h, use_held ho, C.pure_bind]
    | some md => simp only [Option.toList, List.cons_append, List.nil_append, useAll, use_held h, use_held ho, use_held (hm md rfl), C.pure_bind]
  prun [Src.proxy_pow, proxyPow, hu, use_held h, use_held ho, use_held hc, use_held hco, hg, hg', hg3,
    (C87_check hH self _ _ (.name "__pow__") rfl h).call hd, (C87_check hH other _ _ (.name "__rpow__") rfl ho).call hd]
  by_cases hp : H.E.isProxy self = true
  · prun [hp, powWith]
    refine C.step fun i => ?_
    by_cases hi : 0 ≤ i
    · prun [hi]
      refine C.step ?_
      crun_result hH
    · prun [hi]
  · by_cases hq : H.E.isProxy other = true
    · prun [hp, hq, powWith]
      refine C.step fun i => ?_
      by_cases hi : 0 ≤ i
      · prun [hi]
        refine C.step ?_
        crun_result hH
      · prun [hi]
    · cases modulus with
      | none => prun [hp, hq]
      | some md =>
        have hmd := hm md rfl
        have hcm := hH.kept.checkerOf md hmd
        by_cases hr : H.E.isProxy md = true
        · prun [hp, hq, hr, powWith, use_held hmd, use_held hcm, (C87_check hH md _ _ (.name "__3pow__") rfl hmd).call hd]
          refine C.step fun i => ?_
          by_cases hi : 0 ≤ i
          · prun [hi, Option.toList, List.cons_append, List.nil_append]
            refine C.step ?_
            crun_result hH
          · prun [hi]
        · prun [hp, hq, hr, use_held hmd]

theorem C87_call_ipow (self other : Nat) :
    RunsAs H 1 "call_ipow" [.ptr (some self), .ptr (some other)] (callIpow H.E self other) .ptr := by
  refine .intro (g := Src.call_ipow) rfl rfl fun d hd => ?_
  prun [Src.call_ipow, callIpow]

theorem same_numbers (o : Nat) : same H (.numbers o) (.ptr none) = some (H.noNumber o) := rfl

theorem C87_call_int (hH : H.Ok) (self : Nat) :
    RunsAs H 1 "call_int" [.ptr (some self)] (callNumber H.E "__int__" self) .ptr := by
  refine .intro (g := Src.call_int) rfl rfl fun d hd => ?_
  prun [Src.call_int, callNumber, numberText, same_numbers]
  refine C.step fun _ => ?_
  by_cases hn : H.noNumber self = true
  · prun [hn, hH.number self hn]
  · cases hs : H.E.hasNumber self <;> prun [hn, hs]

theorem C87_call_float (hH : H.Ok) (self : Nat) :
    RunsAs H 1 "call_float" [.ptr (some self)] (callNumber H.E "__float__" self) .ptr := by
  refine .intro (g := Src.call_float) rfl rfl fun d hd => ?_
  prun [Src.call_float, callNumber, numberText, same_numbers]
  refine C.step fun _ => ?_
  by_cases hn : H.noNumber self = true
  · prun [hn, hH.number self hn]
  · cases hs : H.E.hasNumber self <;> prun [hn, hs]

theorem C87_init_proxy (self : V) (args kw : V) : RunsAs H 1 "proxy_init" [self, args, kw] (pure 0) .int := by
  refine .intro (g := Src.proxy_init) rfl rfl fun d hd => ?_
  prun [Src.proxy_init]

theorem C87_clear_proxy (self : Nat) (h : H.E.held self = true) :
    RunsAs H 1 "proxy_clear" [.ptr (some self)] (proxyClear H.E self (some (H.E.checkerOf self))) .int := by
  refine .intro (g := Src.proxy_clear) rfl rfl fun d hd => ?_
  prun [Src.proxy_clear, proxyClear, clearField, use_held h]

theorem C87_getChecker (m : V) (arg : Nat) (h : H.E.held arg = true) :
    RunsAs H 1 "module_getChecker" [m, .ptr (some arg)] (CM.getChecker H.E arg) .ptr := by
  refine .intro (g := Src.module_getChecker) rfl rfl fun d hd => ?_
  prun [Src.module_getChecker, CM.getChecker, use_held h]
  by_cases hp : H.E.isProxy arg = true <;> prun [hp]

theorem C87_getObject (m : V) (arg : Nat) (h : H.E.held arg = true) :
    RunsAs H 1 "module_getObject" [m, .ptr (some arg)] (CM.getObject H.E arg) .ptr := by
  refine .intro (g := Src.module_getObject) rfl rfl fun d hd => ?_
  prun [Src.module_getObject, CM.getObject, use_held h]
  by_cases hp : H.E.isProxy arg = true <;> prun [hp]

/-- The end of `default_repr`. -/
theorem repr_end : Src.default_repr.body.after "err" = some
    (.eval (.call (.api .Py_DECREF) [.var "klass"]) <|
    .eval (.call (.api .Py_XDECREF) [.var "name"]) <|
    .eval (.call (.api .Py_XDECREF) [.var "module"]) <|
    .ret (.var "result")) := rfl

theorem same_text (p : Ptr) : same H (.text p) (.ptr none) = some false := rfl

theorem C87_default_repr (object : Nat) :
    RunsAs H 1 "default_repr" [.ptr (some object)] (defaultRepr H.E object) .ptr := by
  refine .intro (g := Src.default_repr) rfl rfl fun d hd => ?_
  have hg : glob H "__class__str" = .name "__class__" := rfl
  have hg' : glob H "__name__str" = .name "__name__" := rfl
  have hg3 : glob H "__module__str" = .name "__module__" := rfl
  prun [Src.default_repr, defaultRepr, hg, hg', hg3, same_text]
  refine C.step ?_
  rintro (_ | klass)
  · prun []
  · prun []
    refine C.step ?_
    rintro (_ | name)
    · have he := repr_end
      simp only [Src.default_repr] at he
      prun [jumping, he, xdecref]
    · prun []
      refine C.step fun sname => ?_
      prun [reprText]
      refine C.step ?_
      rintro (_ | module) <;> prun [xdecref]

theorem C87_str (hH : H.Ok) (self : Nat) (h : H.E.held self = true) :
    RunsAs H 4 "proxy_str" [.ptr (some self)] (proxyText H.E self "__str__") .ptr := by
  refine .intro (g := Src.proxy_str) rfl rfl fun d hd => ?_
  have hg : glob H "str___str__" = .name "__str__" := rfl
  prun [Src.proxy_str, proxyText, use_held h, hg, (C87_check hH self _ _ (.name "__str__") rfl h).call hd,
    (C87_default_repr (H.E.wrapped self)).call (by omega : 1 ≤ d)]
  refine C.step fun i => ?_
  by_cases hi : 0 ≤ i <;> prun [hi]

theorem C87_repr (hH : H.Ok) (self : Nat) (h : H.E.held self = true) :
    RunsAs H 4 "proxy_repr" [.ptr (some self)] (proxyText H.E self "__repr__") .ptr := by
  refine .intro (g := Src.proxy_repr) rfl rfl fun d hd => ?_
  have hg : glob H "str___repr__" = .name "__repr__" := rfl
  prun [Src.proxy_repr, proxyText, use_held h, hg, (C87_check hH self _ _ (.name "__repr__") rfl h).call hd,
    (C87_default_repr (H.E.wrapped self)).call (by omega : 1 ≤ d)]
  refine C.step fun i => ?_
  by_cases hi : 0 ≤ i <;> prun [hi]

/-- After allocating an object and counting references to two others the object can be used. -/
theorem use_alloc {E : Env} (type object checker : Nat) (k : Ptr → C α) :
    (callObj E .api .alloc [type] >>= fun p => match p with
      | none => k none
      | some self => incref E object >>= fun _ => incref E checker >>= fun _ => use E self >>= fun _ => give object >>= fun _ =>
        use E self >>= fun _ => give checker >>= fun _ => k (some self))
    = (callObj E .api .alloc [type] >>= fun p => match p with
      | none => k none
      | some self => incref E object >>= fun _ => incref E checker >>= fun _ => give object >>= fun _ =>
        give checker >>= fun _ => k (some self)) := by
  funext m
  refine C.bind_congr_at fun p m1 h1 => ?_
  match p with
  | none => rfl
  | some self =>
    have hs : 0 < m1.own self := by
      by_cases ha : alive E m type = true
      · have hu : useAll E [type] m = .ok () m := by simp only [useAll]; exact C.ok_bind (if_pos ha)
        replace h1 := (C.ok_bind hu).symm.trans h1
        replace h1 := (C.ok_bind (x := consult E .api .alloc [type]) (m := m) rfl).symm.trans h1
        by_cases hr : (E.reply m.log.length).null = true
        · simp only [hr, if_true] at h1
          cases h1
        · simp only [hr, Bool.false_eq_true, if_false] at h1
          cases h1
          simp
      · have hu : useAll E [type] m = .fault (.dangling type) m := by
          simp only [useAll]
          exact C.fault_bind (by simp [use, ha])
        have : callObj E .api .alloc [type] m = .fault (.dangling type) m := C.fault_bind hu
        rw [this] at h1
        cases h1
    refine C.bind_congr_at fun _ m2 h2 => C.bind_congr_at fun _ m3 h3 => ?_
    have h2 := incref_ok h2
    have h3 := incref_ok h3
    have hs2 : m1.own self ≤ m2.own self := by
      rw [h2]
      by_cases e : self = object
      · subst e; simp
      · simp [e]
    have hs3 : m2.own self ≤ m3.own self := by
      rw [h3]
      by_cases e : self = checker
      · subst e; simp
      · simp [e]
    have ho : m1.own object + 1 ≤ m3.own object := by
      have : m1.own object + 1 ≤ m2.own object := by rw [h2]; simp
      have : m2.own object ≤ m3.own object := by
        rw [h3]
        by_cases e : object = checker
        · subst e; simp
        · simp [e]
      omega
    have hu : use E self m3 = .ok () m3 := by
      have : alive E m3 self = true := by simp [alive, (by omega : 0 < m3.own self)]
      simp only [use, this, if_true]
    refine (C.ok_bind hu).trans ?_
    refine C.bind_congr_at fun _ m4 h4 => ?_
    refine C.ok_bind (a := ()) ?_
    have hg : give object m3 = .ok () { m3 with own := fun k => if k = object then m3.own object - 1 else m3.own k } := by
      simp only [give]
      exact if_neg (by omega)
    rw [hg] at h4
    cases h4
    have : alive E { m3 with own := fun k => if k = object then m3.own object - 1 else m3.own k } self = true := by
      by_cases e : self = object
      · subst e
        simp [alive, (by omega : 0 < m3.own self - 1)]
      · simp [alive, e, (by omega : 0 < m3.own self)]
    simp only [use, this, if_true]

theorem C87_new (type object checker : Nat) (kwds : V) (h : H.E.held type = true) :
    RunsAs H 1 "proxy_new" [.ptr (some type), .tuple [object, checker], kwds] (proxyNew H.E type object checker) .ptr := by
  refine .intro (g := Src.proxy_new) rfl rfl fun d hd => ?_
  prun [Src.proxy_new, proxyNew, assigned, writeField, givePtr, use_held h]
  refine C.step fun ok => ?_
  cases ok
  · prun []
  · prun []
    by_cases hn : checker = H.E.none
    · subst hn
      prun []
      exact if_pos (by decide)
    · prun [hn]
      refine (if_pos (by decide)).trans ((if_neg fun e => hn (Option.some.inj e)).trans ?_)
      refine Eq.trans (C.step ?_) ((use_alloc type object checker fun p => pure (V.ptr p)).trans (C.step ?_))
      · rintro (_ | self)
        · rfl
        · rfl
      · rintro (_ | self) <;> prun []

end ZS.Props
