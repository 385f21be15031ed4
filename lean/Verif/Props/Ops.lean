import Verif.Props.Mediation
import Verif.Spec.Ops
import Verif.Lemmas.PresOps
import Verif.Props.Management

/-!
# C15 writes, C16 texts, C17 in-place operators
-/

namespace ZS.Props
open Spec
variable {A : Type}

/-! ## C15 Writes and deletes go through write permissions -/

/-- **C15** Setting or deleting an attribute through a proxy is: `check_setattr` for exactly that name
on the wrapped object, then the write itself, then `None`. -/
theorem C15_exact (X : Ctx A) (p : Val) (op : POp) (n : Name) (ro : Val → RawOp) (hop : Writes op n ro)
    (hslot : X.impl = .py → n ≠ "_wrapped" ∧ n ≠ "_checker") (s : St A) (w c : Val)
    (hcur : current X.impl s p = some (w, c)) :
    pop X p op s = (do
      chkCheck X (hasattrX X) .setattr c w n
      let _ ← perform X (ro w)
      pure .none : M A Val) s := by
  cases p with
  | proxy id pw pc =>
    cases hX : X.impl with
    | c =>
      rw [pop_c hX]
      rw [hX] at hcur
      cases hcur
      cases hop <;> rfl
    | py =>
      obtain ⟨h1, h2⟩ := hslot hX
      rw [pop_py hX]
      rw [hX] at hcur
      simp only [current, Option.some.injEq, Prod.mk.injEq] at hcur
      have hwc : proxyWrapped X s id pw = w ∧ proxyChecker X s id pc = c := by
        simp only [proxyWrapped, proxyChecker, hX]; exact hcur
      cases hop with
      | set n v =>
        simp only [popPy, setattrPy]
        rw [run_ite, if_neg h1, run_ite, if_neg h2]
        show (chkCheck X (hasattrX X) .setattr (proxyChecker X s id pc) (proxyWrapped X s id pw) n >>= fun _ =>
          perform X (.setattr (proxyWrapped X s id pw) n v) >>= fun _ => pure Val.none) s = _
        rw [hwc.1, hwc.2]
      | del n =>
        simp only [popPy, delattrPy]
        rw [run_ite, if_neg (by simp [h1, h2])]
        show (chkCheck X (hasattrX X) .setattr (proxyChecker X s id pc) (proxyWrapped X s id pw) n >>= fun _ =>
          perform X (.delattr (proxyWrapped X s id pw) n) >>= fun _ => pure Val.none) s = _
        rw [hwc.1, hwc.2]
  | _ => cases X.impl <;> simp [current] at hcur

/-- **C15** A write or delete succeeds only if `check_setattr` grants the name (and the object then
accepts it). -/
theorem C15_success (X : Ctx A) (p : Val) (op : POp) (n : Name) (ro : Val → RawOp) (hop : Writes op n ro)
    (hslot : X.impl = .py → n ≠ "_wrapped" ∧ n ≠ "_checker") (s s' : St A) (w c v : Val)
    (hcur : current X.impl s p = some (w, c)) (h : pop X p op s = (.ok v, s')) :
    v = .none ∧ ∃ s1 u, chkCheck X (hasattrX X) .setattr c w n s = (.ok (), s1) ∧ perform X (ro w) s1 = (.ok u, s') := by
  rw [C15_exact X p op n ro hop hslot s w c hcur] at h
  obtain ⟨_, s1, h1, h2⟩ := bind_eq_ok h
  obtain ⟨u, s2, h3, h4⟩ := bind_eq_ok h2
  cases h4
  exact ⟨rfl, s1, u, h1, h3⟩

/-- Two checkers with the same write dictionaries, link by link; their read dictionaries are anything. -/
inductive SameWrites : Val → Val → Prop
  | plain {i i' g g' st} : SameWrites (.checker i g st) (.checker i' g' st)
  | combined {i i' g g' st c c'} : SameWrites c c' → SameWrites (.combined i g st c) (.combined i' g' st c')
  | foreign {c} : SameWrites c c

/-- **C15** Reading permissions are irrelevant: writing or deleting an attribute through two proxies of the same object whose
checkers have the same write dictionaries (and any read dictionaries) ends alike, in every state and for combined
checkers of any depth. -/
theorem C15_read_irrelevant (X : Ctx A) (p p' : Val) (op : POp) (n : Name) (ro : Val → RawOp) (hop : Writes op n ro)
    (hslot : X.impl = .py → n ≠ "_wrapped" ∧ n ≠ "_checker") (s : St A) (w c c' : Val) (hsame : SameWrites c c')
    (hcur : current X.impl s p = some (w, c)) (hcur' : current X.impl s p' = some (w, c')) :
    pop X p op s = pop X p' op s := by
  have key : ∀ H o n, chkCheck X H .setattr c o n = chkCheck X H .setattr c' o n := by
    intro H o n
    clear hcur hcur'
    induction hsame with
    | plain => rfl
    | @combined i i' g g' st c c' h ih =>
      show combine (plainSetattr X st o n) (chkCheck X H .setattr c o n)
        = combine (plainSetattr X st o n) (chkCheck X H .setattr c' o n)
      rw [ih]
    | foreign => rfl
  rw [C15_exact X p op n ro hop hslot s w c hcur, C15_exact X p' op n ro hop hslot s w c' hcur', key]

/-- Two proxies of object 1 that agree on writing "w" and on nothing else. -/
example : SameWrites (.combined 60 30 31 (.checker 61 30 31)) (.combined 62 0 31 (.checker 63 4 31))
    ∧ ∀ impl, current impl (Ex.s1 (some (.obj 50))) (.proxy 70 (.obj 1) (.combined 60 30 31 (.checker 61 30 31)))
        = some (.obj 1, .combined 60 30 31 (.checker 61 30 31)) :=
  ⟨.combined .plain, fun impl => by cases impl <;> rfl⟩

/-- **C15** Read permission is not sufficient: if the write dictionary does not mention the name, writes
are forbidden and not carried out, whatever the read dictionary says. -/
theorem C15_read_not_sufficient (X : Ctx A) (p : Val) (op : POp) (n : Name) (ro : Val → RawOp) (hop : Writes op n ro)
    (hslot : X.impl = .py → n ≠ "_wrapped" ∧ n ≠ "_checker") (s : St A) (w : Val) (cid g st : Nat)
    (hcur : current X.impl s p = some (w, .checker cid g st)) (hund : (s.dicts st).get? n = none) :
    pop X p op s = (.err (.forbidden n w), s) := by
  rw [C15_exact X p op n ro hop hslot s w _ hcur]
  have : plainSetattr X st w n s = (.err (.forbidden n w), s) :=
    (plainSetattr_spec X st w n s _).mpr (.forbidden fun p hp => by have := hp.1; rw [hund] at this; cases this)
  show (plainSetattr X st w n >>= _) s = _
  rw [run_bind, this]

/-- **C15** ... nor necessary: if the write dictionary declares the name public, writes are carried out
without further ado, even when the read dictionary does not mention it. -/
theorem C15_read_not_necessary (X : Ctx A) (p : Val) (op : POp) (n : Name) (ro : Val → RawOp) (hop : Writes op n ro)
    (hslot : X.impl = .py → n ≠ "_wrapped" ∧ n ≠ "_checker") (s : St A) (w : Val) (cid g st : Nat)
    (hcur : current X.impl s p = some (w, .checker cid g st)) (hpub : (s.dicts st).get? n = some publicV) :
    pop X p op s = (do let _ ← perform X (ro w); pure .none : M A Val) s := by
  rw [C15_exact X p op n ro hop hslot s w _ hcur]
  have : plainSetattr X st w n s = (.ok (), s) :=
    (plainSetattr_spec X st w n s _).mpr (.declared (p := publicV) ⟨hpub, fun _ h => by cases h⟩ (.isPublic rfl))
  show (plainSetattr X st w n >>= _) s = _
  rw [run_bind, this]

/-- Public to read, not writable; and writable, not readable. -/
example :
    (pop (Ex.X .c) (.proxy 70 (.obj 1) Ex.c1) (.setattr "a" (.int 1)) (Ex.s1 none)).1 = .err (.forbidden "a" (.obj 1))
    ∧ (pop (Ex.X .py) (.proxy 70 (.obj 1) Ex.c1) (.setattr "a" (.int 1)) (Ex.s1 none)).1 = .err (.forbidden "a" (.obj 1))
    ∧ (pop (Ex.X .c) (.proxy 70 (.obj 1) Ex.c1) (.setattr "w" (.int 1)) (Ex.s1 (some (.obj 50)))).1 = .ok .none
    ∧ (pop (Ex.X .py) (.proxy 70 (.obj 1) Ex.c1) (.delattr "w") (Ex.s1 (some (.obj 50)))).1 = .ok .none
    ∧ (pop (Ex.X .c) (.proxy 70 (.obj 1) Ex.c1) (.getattr "w" false) (Ex.s1 (some (.obj 50)))).1
        = .err (.forbidden "w" (.obj 1)) := by
  refine ⟨rfl, rfl, rfl, rfl, rfl⟩

/-- **C15** Fails for the two private names of a pure-Python proxy: assigning them succeeds whatever the
checker says, without asking it, and replaces what the proxy wraps or who checks. -/
theorem C15_py_slots (X : Ctx A) (hX : X.impl = .py) (id : Nat) (w0 c0 x : Val) (s : St A) :
    (∃ s', pop X (.proxy id w0 c0) (.setattr "_wrapped" x) s = (.ok .none, s') ∧ s'.trace = s.trace ∧
      ∀ w c, current .py s (.proxy id w0 c0) = some (w, c) → current .py s' (.proxy id w0 c0) = some (x, c))
    ∧ (∃ s', pop X (.proxy id w0 c0) (.setattr "_checker" x) s = (.ok .none, s') ∧ s'.trace = s.trace ∧
      ∀ w c, current .py s (.proxy id w0 c0) = some (w, c) → current .py s' (.proxy id w0 c0) = some (w, x)) := by
  refine ⟨⟨{ s with ovW := fun k => if k = id then some x else s.ovW k }, by rw [pop_py hX]; rfl, rfl, ?_⟩,
    ⟨{ s with ovC := fun k => if k = id then some x else s.ovC k }, by rw [pop_py hX]; rfl, rfl, ?_⟩⟩ <;>
  · rintro w c h
    simp only [current, Option.some.injEq, Prod.mk.injEq] at h ⊢
    simp [h.1, h.2]

/-- **C15** ... so that two assignments open any object: afterwards the chosen checker decides. -/
theorem C15_py_exploit : ∃ (p : Val) (s : St Unit), IsProxy p ∧
    (pop (Ex.X .py) p (.getattr "x" false) s).1 = .err (.forbidden "x" (.obj 1)) ∧
    (∃ v, (pop (Ex.X .py) p (.getattr "x" false) (pop (Ex.X .py) p (.setattr "_checker" (.checker 61 32 33)) s).2).1 = .ok v) := by
  refine ⟨.proxy 70 (.obj 1) Ex.c1, { Ex.s1 none with dicts := fun k => if k = 32 then [("x", publicV)] else (Ex.s1 none).dicts k },
    ⟨_, _, _, rfl⟩, rfl, _, rfl⟩

/-! ## C16 Texts -/

/-- What the compiled fallback text returns. -/
theorem defaultReprC_text (X : Ctx A) (w v : Val) (s s' : St A) (h : defaultReprC X w s = (.ok v, s')) :
    ∃ m? nm, v = .str 0 (genericText m? nm (X.W.addr w)) := by
  unfold defaultReprC at h
  obtain ⟨k, s1, _, h⟩ := bind_eq_ok h
  obtain ⟨nm, s2, _, h⟩ := bind_eq_ok h
  obtain ⟨sn, s3, _, h⟩ := bind_eq_ok h
  obtain ⟨sm, s4, _, h⟩ := bind_eq_ok h
  cases sm with
  | none => cases h; exact ⟨none, sn, rfl⟩
  | some m =>
    obtain ⟨ms, s5, _, h⟩ := bind_eq_ok h
    cases h
    exact ⟨some ms, sn, rfl⟩

theorem defaultReprPy_text (X : Ctx A) (w v : Val) (s s' : St A) (h : defaultReprPy X w s = (.ok v, s')) :
    ∃ m? nm, v = .str 0 (genericText m? nm (X.W.addr w)) := by
  unfold defaultReprPy at h
  obtain ⟨k, s1, _, h⟩ := bind_eq_ok h
  obtain ⟨m, s2, _, h⟩ := bind_eq_ok h
  obtain ⟨k, s1, _, h⟩ := bind_eq_ok h
  obtain ⟨nm, s2, _, h⟩ := bind_eq_ok h
  obtain ⟨sm, s3, _, h⟩ := bind_eq_ok h
  obtain ⟨sn, s3, _, h⟩ := bind_eq_ok h
  cases h
  exact ⟨some sm, sn, rfl⟩

/-- **C16** When the check of a compiled proxy refuses — with whatever exception — the object's own
`__str__`/`__repr__` is not run, and a text that is returned is the generic one. -/
theorem C16_refused_c (X : Ctx A) (hX : X.impl = .c) (id : Nat) (w c : Val) (op : POp) (n : Name) (hop : Texts op n)
    (s s1 : St A) (e : Exn) (hden : chkCheck X (hasattrX X) .check c w n s = (.err e, s1)) :
    NewEvents s (pop X (.proxy id w c) op s).2 IsProbe
    ∧ (∀ v s', pop X (.proxy id w c) op s = (.ok v, s') → ∃ m? nm, v = .str 0 (genericText m? nm (X.W.addr w))) := by
  constructor
  · have hn : n ≠ "__iter__" := by cases hop <;> decide
    have hq : need X.impl (.proxy id w c) op = some ⟨.proxy id w c, .check, n, fun w => .special n w []⟩ := by
      cases hop <;> rfl
    refine C14_nothing_done X (by rw [hX]; simp) _ ⟨_, _, _, rfl⟩ op _ hq s w c (by rw [hX]; rfl) (.inr hn) ?_
    intro s2 h
    rw [hden] at h
    cases h
  · intro v s' h
    have : pop X (.proxy id w c) op s = defaultReprC X w s1 := by
      rw [pop_c hX]
      cases hop <;>
      · show strC X w c _ s = _
        unfold strC guard
        rw [hden]
    rw [this] at h
    exact defaultReprC_text X w v s1 s' h

/-- The class of the object answers the three questions asked about it. -/
structure ClassAnswers (X : Ctx A) (w : Val) (s : St A) (m nm : String) (s' : St A) : Prop where
  out : ∃ k am an, ∃ s2 s3, probe X (.getattr w "__class__") s = (.ok k, s2)
    ∧ probe X (.getattr k "__name__") s2 = (.ok (.str an nm), s3)
    ∧ probe X (.getattr k "__module__") s3 = (.ok (.str am m), s')

/-- **C16** ... and if the class has a name and a module, the text is returned: the refusal is not
passed on. -/
theorem C16_text_c (X : Ctx A) (hX : X.impl = .c) (id : Nat) (w c : Val) (op : POp) (n : Name) (hop : Texts op n)
    (s s1 s2 : St A) (e : Exn) (hden : chkCheck X (hasattrX X) .check c w n s = (.err e, s1)) (m nm : String)
    (hcls : ClassAnswers X w s1 m nm s2) :
    pop X (.proxy id w c) op s = (.ok (.str 0 (genericText (some m) nm (X.W.addr w))), s2) := by
  have : pop X (.proxy id w c) op s = defaultReprC X w s1 := by
    rw [pop_c hX]
    cases hop <;>
    · show strC X w c _ s = _
      unfold strC guard
      rw [hden]
  obtain ⟨k, am, an, t2, t3, h1, h2, h3⟩ := hcls.out
  rw [this]
  unfold defaultReprC
  rw [bind_ok h1, bind_ok h2]
  show (M.tryCatch (probe X (.getattr k "__module__") >>= fun m => pure (some m)) _ _ >>= _) t3 = _
  rw [run_bind, run_tryCatch, run_bind, h3]
  rfl

/-- What a pure-Python proxy does for a text after a refusal that is not a `TypeError`. -/
theorem text_refused_py (X : Ctx A) (hX : X.impl = .py) (id : Nat) (hW : ∀ i, NotRepointed X.W i) (w0 c0 w c : Val) (op : POp) (n : Name)
    (hop : Texts op n) (s s1 : St A) (hcur : current .py s (.proxy id w0 c0) = some (w, c)) (e : Exn) (he : e ≠ .typeError)
    (hden : chkCheck X (hasattrX X) .check c w n s = (.err e, s1)) :
    pop X (.proxy id w0 c0) op s = (defaultReprPy X w >>= asStr X.W) s1 := by
  have hk := check_keeps (hW id) (X := X) .check c w n s
  rw [hden] at hk
  simp only [current, Option.some.injEq, Prod.mk.injEq] at hcur
  have hwc : proxyWrapped X s id w0 = w ∧ proxyChecker X s id c0 = c := by
    simp only [proxyWrapped, proxyChecker, hX]; exact hcur
  have hw1 : proxyWrapped X s1 id w0 = w := by
    rw [← hwc.1]; unfold proxyWrapped; rw [hk.1]
  have h1 : checkNamePy X id w0 c0 n (fun w => .special n w []) s = (.err e, s1) := by
    show (chkCheck X (hasattrX X) .check (proxyChecker X s id c0) (proxyWrapped X s id w0) n >>= _) s = _
    rw [hwc.1, hwc.2, run_bind, hden]
  rw [pop_py hX]
  cases hop <;>
  · show (M.tryCatch (checkNamePy X id w0 c0 _ _) _ _ >>= asStr X.W) s = _
    rw [run_bind, run_tryCatch, h1]
    simp only [he, decide_true, ne_eq, not_false_eq_true, if_true]
    show ((do defaultReprPy X (proxyWrapped X s1 id w0)) >>= asStr X.W) s1 = _
    rw [hw1]

/-- **C16** The same for pure-Python proxies and every refusal but a `TypeError` of the check itself, which
is passed on (`C16_py_typeError`). -/
theorem C16_refused_py (X : Ctx A) (hX : X.impl = .py) (id : Nat) (hW : ∀ i, NotRepointed X.W i) (w0 c0 w c : Val) (op : POp) (n : Name)
    (hop : Texts op n) (s s1 : St A) (hcur : current .py s (.proxy id w0 c0) = some (w, c)) (e : Exn) (he : e ≠ .typeError)
    (hden : chkCheck X (hasattrX X) .check c w n s = (.err e, s1)) :
    NewEvents s (pop X (.proxy id w0 c0) op s).2 IsProbe
    ∧ (∀ v s', pop X (.proxy id w0 c0) op s = (.ok v, s') → ∃ m? nm, v = .str 0 (genericText m? nm (X.W.addr w))) := by
  constructor
  · have hn : n ≠ "__iter__" := by cases hop <;> decide
    have hq : need X.impl (.proxy id w0 c0) op = some ⟨.proxy id w0 c0, .check, n, fun w => .special n w []⟩ := by
      cases hop <;> rfl
    refine C14_nothing_done X (fun _ => hW) _ ⟨_, _, _, rfl⟩ op _ hq s w c (by rw [hX]; exact hcur) (.inr hn) ?_
    intro s2 h
    rw [hden] at h
    cases h
  · intro v s' h
    rw [text_refused_py X hX id hW w0 c0 w c op n hop s s1 hcur e he hden] at h
    obtain ⟨v1, s2, h2, h3⟩ := bind_eq_ok h
    obtain ⟨m?, nm, rfl⟩ := defaultReprPy_text X w v1 s1 s2 h2
    cases h3
    exact ⟨m?, nm, rfl⟩

/-- The class of the object answers the four questions a pure-Python proxy asks about it. -/
structure ClassAnswersPy (X : Ctx A) (w : Val) (s : St A) (m nm : String) (s' : St A) : Prop where
  out : ∃ k k' am an, ∃ s2 s3 s4, probe X (.getattr w "__class__") s = (.ok k, s2)
    ∧ probe X (.getattr k "__module__") s2 = (.ok (.str am m), s3)
    ∧ probe X (.getattr w "__class__") s3 = (.ok k', s4)
    ∧ probe X (.getattr k' "__name__") s4 = (.ok (.str an nm), s')

/-- **C16** ... and if the class has a name and a module, the text is returned. -/
theorem C16_text_py (X : Ctx A) (hX : X.impl = .py) (id : Nat) (hW : ∀ i, NotRepointed X.W i) (w0 c0 w c : Val) (op : POp) (n : Name)
    (hop : Texts op n) (s s1 s2 : St A) (hcur : current .py s (.proxy id w0 c0) = some (w, c)) (e : Exn) (he : e ≠ .typeError)
    (hden : chkCheck X (hasattrX X) .check c w n s = (.err e, s1)) (m nm : String) (hcls : ClassAnswersPy X w s1 m nm s2) :
    pop X (.proxy id w0 c0) op s = (.ok (.str 0 (genericText (some m) nm (X.W.addr w))), s2) := by
  rw [text_refused_py X hX id hW w0 c0 w c op n hop s s1 hcur e he hden]
  obtain ⟨k, k', am, an, t2, t3, t4, h1, h2, h3, h4⟩ := hcls.out
  unfold defaultReprPy
  rw [run_bind, bind_ok h1, bind_ok h2, bind_ok h3, bind_ok h4]
  rfl

/-- **C16** A `TypeError` raised by the check of a pure-Python proxy is passed on; nothing else is done. -/
theorem C16_py_typeError (X : Ctx A) (hX : X.impl = .py) (id : Nat) (w0 c0 w c : Val) (op : POp) (n : Name)
    (hop : Texts op n) (s s1 : St A) (hcur : current .py s (.proxy id w0 c0) = some (w, c))
    (hden : chkCheck X (hasattrX X) .check c w n s = (.err .typeError, s1)) :
    pop X (.proxy id w0 c0) op s = (.err .typeError, s1) := by
  simp only [current, Option.some.injEq, Prod.mk.injEq] at hcur
  have hwc : proxyWrapped X s id w0 = w ∧ proxyChecker X s id c0 = c := by
    simp only [proxyWrapped, proxyChecker, hX]; exact hcur
  have h1 : checkNamePy X id w0 c0 n (fun w => .special n w []) s = (.err .typeError, s1) := by
    show (chkCheck X (hasattrX X) .check (proxyChecker X s id c0) (proxyWrapped X s id w0) n >>= _) s = _
    rw [hwc.1, hwc.2, run_bind, hden]
  rw [pop_py hX]
  cases hop <;>
  · show (M.tryCatch (checkNamePy X id w0 c0 _ _) _ _ >>= asStr X.W) s = _
    rw [run_bind, run_tryCatch, h1]
    rfl

/-- Both outcomes on concrete objects. -/
example :
    (pop (Ex.X .c) (.proxy 70 (.obj 1) Ex.c1) .str (Ex.s1 none)).1
      = .ok (.str 0 "<security proxied mod.Thing instance at 0x1>")
    ∧ (pop (Ex.X .py) (.proxy 70 (.obj 1) Ex.c1) .str (Ex.s1 none)).1
      = .ok (.str 0 "<security proxied mod.Thing instance at 0x1>")
    ∧ (pop (Ex.X .c) (.proxy 70 (.obj 1) Ex.c1) .str
        { Ex.s1 none with dicts := fun _ => [("__str__", publicV)] }).1 = .ok (.str 0 "hello") := by
  refine ⟨by decide, by decide, by decide⟩

/-! ## C17 In-place operators -/

/-- **C17** A granted in-place operator on a compiled proxy: the same proxy if the object returned
itself, else the result under the protection the checker chooses for it. -/
theorem C17_c (X : Ctx A) (hX : X.impl = .c) (id : Nat) (w c : Val) (b : InName) (o v : Val) (s s1 s2 : St A)
    (hgr : chkCheck X (hasattrX X) .check c w (inNames b).1 s = (.ok (), s1))
    (hop : perform X (.inplace (inNames b).1 w o) s1 = (.ok v, s2)) :
    pop X (.proxy id w c) (.inplace b o) s = if v = w then (.ok (.proxy id w c), s2) else chkProxy X c v s2 := by
  rw [inNames_eq] at hgr hop
  rw [pop_c hX]
  show (chkCheck X (hasattrX X) .check c w b.op >>= fun _ => perform X (.inplace b.op w o) >>= fun v =>
    if v = w then pure (.proxy id w c) else chkProxy X c v) s = _
  rw [bind_ok hgr, bind_ok hop, run_ite]
  rfl

/-- What `Checker.proxy` returns is what it was given, or a proxy around it. -/
theorem chkProxy_shape (X : Ctx A) (c v u : Val) (hc : c.isChecker = true) (s s' : St A)
    (h : chkProxy X c v s = (.ok u, s')) : u = v ∨ ∃ i k, u = .proxy i v k := by
  have hnew : ∀ k (s s' : St A), newProxy v k s = (.ok u, s') → ∃ i k, u = .proxy i v k := by
    intro k s s' h
    unfold newProxy at h
    rw [run_ite] at h
    split at h
    · cases h
    · cases h; exact ⟨_, _, rfl⟩
  unfold chkProxy at h
  rw [if_pos hc] at h
  cases hX : X.impl with
  | py =>
    rw [hX] at h
    simp only [proxyPy] at h
    split at h
    · cases h; exact .inl rfl
    · obtain ⟨k, s1, _, h⟩ := bind_eq_ok h
      rw [run_ite] at h
      split at h
      · obtain ⟨k, s1, _, h⟩ := bind_eq_ok h
        rw [run_ite] at h
        split at h
        · cases h; exact .inl rfl
        · exact .inr (hnew _ _ _ h)
      · exact .inr (hnew _ _ _ h)
  | c =>
    rw [hX] at h
    change proxyC X v s = _ at h
    by_cases hv : v.isProxy = true
    · rw [show proxyC X v = pure v from if_pos hv] at h
      cases h; exact .inl rfl
    · rw [show proxyC X v = _ from if_neg hv] at h
      rcases hg : getSC X v s with ⟨r, s1⟩
      simp only [hg] at h
      cases r with
      | ok k =>
        simp only at h
        split at h
        · cases h
        · exact .inr (hnew _ _ _ h)
      | err e =>
        simp only at h
        obtain ⟨k, s1, _, h⟩ := bind_eq_ok h
        rw [run_ite] at h
        split at h
        · cases h; exact .inl rfl
        · exact .inr (hnew _ _ _ h)
      | diverge => cases h

/-- **C17** ... so that, for the package's own checkers, the caller gets the same proxy exactly when the
object returned itself (or returned this very proxy). -/
theorem C17_same_iff (X : Ctx A) (hX : X.impl = .c) (id : Nat) (w c : Val) (hc : c.isChecker = true) (b : InName) (o v u : Val)
    (s s1 s2 s3 : St A) (hgr : chkCheck X (hasattrX X) .check c w (inNames b).1 s = (.ok (), s1))
    (hop : perform X (.inplace (inNames b).1 w o) s1 = (.ok v, s2))
    (hres : pop X (.proxy id w c) (.inplace b o) s = (.ok u, s3)) :
    u = .proxy id w c ↔ v = w ∨ v = .proxy id w c := by
  rw [C17_c X hX id w c b o v s s1 s2 hgr hop] at hres
  split at hres
  · next h => cases hres; simp [h]
  · next h =>
    constructor
    · rintro rfl
      rcases chkProxy_shape X c v _ hc _ _ hres with h1 | ⟨i, k, h1⟩
      · exact .inr h1.symm
      · cases h1; exact absurd rfl h
    · rintro (h1 | rfl)
      · exact absurd h1 h
      · unfold chkProxy at hres
        rw [if_pos hc, hX] at hres
        cases hres; rfl

/-- **C17** Pure Python: if the object has the in-place method, the proxy itself is returned and from
then on wraps the result, for everybody holding it, still under the old checker. -/
theorem C17_py_repoints (X : Ctx A) (hX : X.impl = .py) (id : Nat) (w0 c0 w c : Val) (b : InName) (o m v : Val) (s s1 s2 s3 : St A)
    (hcur : current .py s (.proxy id w0 c0) = some (w, c))
    (hgr : chkCheck X (hasattrX X) .check c w (inNames b).1 s = (.ok (), s1))
    (hm : perform X (.getattr w (inNames b).1) s1 = (.ok m, s2)) (hm0 : m ≠ .none)
    (hop : perform X (.call m [o]) s2 = (.ok v, s3)) :
    ∃ s', pop X (.proxy id w0 c0) (.inplace b o) s = (.ok (.proxy id w0 c0), s') ∧
      current .py s' (.proxy id w0 c0) = some (v, (s3.ovC id).getD c0) := by
  rw [inNames_eq] at hgr hm
  simp only [current, Option.some.injEq, Prod.mk.injEq] at hcur
  have hwc : proxyWrapped X s id w0 = w ∧ proxyChecker X s id c0 = c := by
    simp only [proxyWrapped, proxyChecker, hX]; exact hcur
  have hg : getattrOrNone X w b.op s1 = (.ok m, s2) := by
    unfold getattrOrNone orNone
    rw [run_tryCatch, hm]
  refine ⟨{ s3 with ovW := fun k => if k = id then some v else s3.ovW k }, ?_, ?_⟩
  · rw [pop_py hX]
    show (chkCheck X (hasattrX X) .check (proxyChecker X s id c0) (proxyWrapped X s id w0) b.op >>= fun _ =>
      getattrOrNone X (proxyWrapped X s id w0) b.op >>= fun m => _) s = _
    rw [hwc.1, hwc.2, bind_ok hgr, bind_ok hg, run_ite, if_pos hm0, bind_ok hop]
    rfl
  · simp [current]

/-- `x += 1` with an object whose result is another object: the compiled proxy stays as it is, the
pure-Python one is re-pointed. -/
example :
    let s := { Ex.s1 none with dicts := fun k => if k = 30 then [("__iadd__", publicV)] else (Ex.s1 none).dicts k }
    (pop (Ex.X .c) (.proxy 70 (.obj 1) Ex.c1) (.inplace .iadd (.int 1)) s).1 = .ok (.proxy 70 (.obj 1) Ex.c1)
    ∧ (pop (Ex.X .py) (.proxy 70 (.obj 1) Ex.c1) (.inplace .iadd (.int 1)) s).1 = .ok (.proxy 70 (.obj 1) Ex.c1)
    ∧ current .py (pop (Ex.X .py) (.proxy 70 (.obj 1) Ex.c1) (.inplace .iadd (.int 1)) s).2 (.proxy 70 (.obj 1) Ex.c1)
      = some (.obj 7, Ex.c1) := by
  refine ⟨by decide, by decide, by decide⟩

/-- **C17** No operation at all on a compiled proxy, and none but in-place operators and assignments to
`_wrapped`/`_checker` on a pure-Python one, changes what any proxy wraps or which checker it has. -/
theorem C17_stable (X : Ctx A) (hW : ∀ id, NotRepointed X.W id) (p : Val) (op : POp) (hop : ¬ Repoints X.impl op) (s : St A)
    (q : Val) (impl : Impl) : current impl (pop X p op s).2 q = current impl s q := by
  cases q with
  | proxy id w c =>
    have h := Pres.pop ((hW id).keeps (s.ovW id) (s.ovC id)) p op (fun h => absurd h hop) s ⟨rfl, rfl⟩
    cases impl <;> simp [current, h.1, h.2]
  | _ => cases impl <;> rfl

example : ¬ Repoints .c (.inplace .iadd (.int 1)) ∧ ¬ Repoints .py (.call []) ∧ Repoints .py (.inplace .iadd (.int 1)) := by
  refine ⟨by simp [Repoints], by simp [Repoints], ⟨rfl, .inl ⟨_, _, rfl⟩⟩⟩

/-! ## Operations and the rest of the state -/

/-- **C24** Nor does any operation on a proxy touch the interaction of another thread. -/
theorem C24_proxy_operations (X : Ctx A) (u : Nat) (hw : Foreign X.W u) (p : Val) (op : POp) (s : St A) :
    (pop X p op s).2.threads u = s.threads u :=
  Pres.pop (foreign_keeps hw (s.threads u)) p op (fun _ => ⟨fun _ _ h => h, fun _ _ h => h⟩) s rfl

/-- The security configuration: registrations, permission dictionaries, names available by default,
policy, interactions and participations. -/
structure Config where
  reg : PyDict Key Val
  basic : PyDict Key Val
  defaults : PyDict Key Val
  dicts : Nat → PyDict Name Val
  avail : List Name
  threads : Nat → Slots
  policy : Policy
  ixs : Nat → IxObj
  parts : Nat → Part

/-- The configuration in a state. -/
def config (s : St A) : Config :=
  ⟨s.reg, s.basic, s.defaults, s.dicts, s.avail, s.threads, s.policy, s.ixs, s.parts⟩

/-- **C55** Using proxies never changes the security configuration: an operation on a proxy — checked
or not, granted or refused, with any checkers and policies — changes it only through application
code that it calls. -/
theorem C55_configuration (X : Ctx A) (hW : ∀ r s, config (X.W.apply r s).2 = config s) (p : Val) (op : POp) (s : St A) :
    config (pop X p op s).2 = config s :=
  Pres.pop (P := fun s' => config s' = config s)
    ⟨fun r s' h => (hW r s').trans h, fun _ _ h => h, fun _ h => h⟩ p op (fun _ => ⟨fun _ _ h => h, fun _ _ h => h⟩) s rfl

example : ∀ r s, config (Ex.W.apply r s).2 = config s := by
  intro r s
  simp only [Ex.W]
  split <;> rfl

end ZS.Props
