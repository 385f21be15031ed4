import Verif.Props.SourceProxy

/-!
# C78: an operation on a pure-Python proxy is a run of the source

The runtime looks a method up in the finished class and calls it; `runtime` says which method with
which arguments, and what the runtime makes of the result.
-/

namespace ZS.Props
open ZS ZS.PyC ZS.Src
variable {A : Type}
set_option maxHeartbeats 1000000

/-- A function of the class: what the module-level loops put there, or else the body of the class. -/
def methodFn (n : Name) : Option (Fn × Env) :=
  match Env.get? (installed []) n with
  | some (.clos f env) =>
    if f = "_check_name._wrapper" then some (Proxy._check_name._wrapper, env)
    else if f = "_check_name_inplace._wrapper" then some (Proxy._check_name_inplace._wrapper, env)
    else none
  | _ => (PyDict.get? Proxy.ProxyPy.methods n).map fun f => (f, [])

/-- Calling a method of a proxy by its name. -/
def callMethod (X : Ctx A) (h : Opts) (n : Name) (self : Val) (args : List Val) : M A PV :=
  match methodFn n with
  | some (f, env) => runIn (lang X h) f env (.v self :: args.map .v) []
  | none => M.throw (.attributeError n)

/-- The result of a statement is dropped. -/
def dropped (x : M A PV) : M A PV := do
  let _ ← x
  pure (.v .none)

/-- `len()` insists on a length. -/
def asLength (x : M A PV) : M A PV := do
  let r ← x
  match r with
  | .v v => val (asLen v)
  | _ => stuck

/-- An operation on a pure-Python proxy as the runtime carries it out. -/
def runtime (X : Ctx A) (id : Nat) (w c : Val) (op : POp) : M A PV :=
  let self : Val := .proxy id w c
  match op with
  | .getattr n inside =>
    M.tryCatch (callMethod X (calledFrom (if inside then .v self else .v .none)) "__getattribute__" self [.str 0 n]) Exn.isAttr
      (fun _ => callMethod X user "__getattr__" self [.str 0 n])
  | .setattr n x => dropped (callMethod X user "__setattr__" self [.str 0 n, x])
  | .delattr n => dropped (callMethod X user "__delattr__" self [.str 0 n])
  | .unop u => callMethod X user u.op self []
  | .call args => callMethod X user "__call__" self args
  | .getitem k => callMethod X user "__getitem__" self [k]
  | .setitem k x => dropped (callMethod X user "__setitem__" self [k, x])
  | .delitem k => dropped (callMethod X user "__delitem__" self [k])
  | .contains x => callMethod X user "__contains__" self [x]
  | .len => asLength (callMethod X user "__len__" self [])
  | .iter => callMethod X user "__iter__" self []
  | .next => callMethod X user "__next__" self []
  | .binL b o => callMethod X user b.op self [o]
  | .binR b o => callMethod X user b.rop self [o]
  | .pow y m => callMethod X user "__pow__" self [y, m]
  | .rpow x m => callMethod X user "__rpow__" self [x, m]
  | .pow3 _ _ => pure (.v .notImpl)
  | .inplace b o => callMethod X user b.op self [o]
  | .compare b o => callMethod X ⟨.raw, .v .none⟩ b.op self [o]
  | .hash => callMethod X user "__hash__" self []
  | .bool => callMethod X user "__bool__" self []
  | .lengthHint => callMethod X user "__length_hint__" self []
  | .str => asText X (callMethod X own "__str__" self [])
  | .repr => asText X (callMethod X own "__repr__" self [])

/-! ## Finding the method -/

theorem get_installed (mk : Name → PV) (l : List Name) : ∀ (d : ClassDict) (n : Name),
    Env.get? (install mk l d) n = if n ∈ l then some (mk n) else Env.get? d n := by
  induction l with
  | nil => intro d n; simp [install]
  | cons t l ih =>
    intro d n
    show Env.get? (install mk l ((t, mk t) :: d)) n = _
    rw [ih, Env.get?]
    by_cases h : n = t
    · subst h
      by_cases h' : n ∈ l <;> simp [h']
    · have h' : ¬ t = n := fun e => h e.symm
      simp [h, h']

theorem get_all (n : Name) : Env.get? (installed []) n =
    if n ∈ inplaceNames then some (checkingInplace n)
    else if n ∈ ["__len__"] then some (checking false n)
    else if n ∈ checkedNames then some (checking true n) else none := by
  rw [installed, get_installed, get_installed, get_installed]
  rfl

theorem method_checked {n : Name} (h1 : n ∉ inplaceNames) (h2 : n ≠ "__len__") (h3 : n ∈ checkedNames) :
    methodFn n = some (Proxy._check_name._wrapper, [("name", .v (.str 0 n)), ("wrap_result", .v (.bool true)), ("meth", .base n)]) := by
  rw [methodFn, get_all, if_neg h1, if_neg (by simpa using h2), if_pos h3, checking]
  rfl

theorem method_len :
    methodFn "__len__" = some (Proxy._check_name._wrapper,
      [("name", .v (.str 0 "__len__")), ("wrap_result", .v (.bool false)), ("meth", .base "__len__")]) := by
  rw [methodFn, get_all, if_neg (by decide), if_pos (by decide), checking]
  rfl

theorem method_inplace {n : Name} (h1 : n ∈ inplaceNames) :
    methodFn n = some (Proxy._check_name_inplace._wrapper, [("name", .v (.str 0 n)), ("meth", .base n)]) := by
  rw [methodFn, get_all, if_pos h1, checkingInplace]
  rfl

theorem method_body {n : Name} (h1 : n ∉ inplaceNames) (h2 : n ≠ "__len__") (h3 : n ∉ checkedNames) :
    methodFn n = (PyDict.get? Proxy.ProxyPy.methods n).map fun f => (f, []) := by
  rw [methodFn, get_all, if_neg h1, if_neg (by simpa using h2), if_neg h3]

/-! ## Checked methods -/

/-- The names whose result the base class converts. -/
theorem baseResult_same (X : Ctx A) (m : Name) (r : Val)
    (h : m ∉ ["__setitem__", "__delitem__", "__contains__", "__len__"]) : baseResult X m r = pure r := by
  simp only [List.mem_cons, List.not_mem_nil, or_false, not_or] at h
  obtain ⟨h1, h2, h3, h4⟩ := h
  unfold baseResult
  rw [if_neg (by simp [h1, h2]), if_neg h3, if_neg h4]

/-- A checked method whose result is proxied. -/
theorem call_checked_method (X : Ctx A) (id : Nat) (w c : Val) (n : Name) (args : List Val) (r : Val → RawOp)
    (h1 : n ∉ inplaceNames) (h2 : n ∈ checkedNames) (h3 : n ∉ ["__setitem__", "__delitem__", "__contains__", "__len__"])
    (h4 : ∀ w, baseOp n args w = r w) :
    callMethod X user n (.proxy id w c) args = val (checkNamePy X id w c n r) := by
  have h5 : n ≠ "__len__" := by intro e; apply h3; rw [e]; decide
  rw [callMethod, method_checked h1 h5 h2]
  show runIn _ _ _ _ _ = _
  rw [C78_wrapper]
  apply ext_fork
  intro s
  unfold checkNamePy
  simp only [baseResult_same X n _ h3, h4]
  pyforks

theorem bin_left (b : BinName) (o w : Val) : baseOp b.op [o] w = .binop b.op w o := by cases b <;> rfl
theorem bin_right (b : BinName) (o w : Val) : baseOp b.rop [o] w = .binop b.op o w := by cases b <;> rfl
theorem un_op (u : UnName) (w : Val) : baseOp u.op [] w = .special u.op w [] := by cases u <;> rfl
theorem set_op (k x w : Val) : baseOp "__setitem__" [k, x] w = .special "__setitem__" w [k, x] := (rfl)
theorem del_op (k w : Val) : baseOp "__delitem__" [k] w = .special "__delitem__" w [k] := (rfl)
theorem contains_op (k w : Val) : baseOp "__contains__" [k] w = .special "__contains__" w [k] := (rfl)
theorem len_op (w : Val) : baseOp "__len__" [] w = .special "__len__" w [] := (rfl)
theorem len_twice {x y : Val} {s s' : St A} (h : asLen x s = (.ok y, s')) : asLen y s' = (.ok y, s') := by
  cases x with
  | int n =>
    by_cases hn : 0 ≤ n
    · rw [asLen, if_pos hn] at h
      cases h
      rw [asLen, if_pos hn]
      rfl
    · rw [asLen, if_neg hn] at h
      cases h
  | _ => cases h
theorem in_op (b : InName) : b.op ∈ inplaceNames := by cases b <;> decide

/-- Operations whose method belongs to another operand when that is a proxy, or whose result the
runtime reads as a truth value, are left to separate statements. -/
def ours : POp → Bool
  | .binR _ o => !o.isProxy
  | .rpow x _ => !x.isProxy
  | .pow3 _ _ => false
  | .contains _ => false
  | _ => true

/-- **Every operation on a pure-Python proxy is a run of the source** of the method the runtime
finds in the class. -/
theorem C78_ops (X : Ctx A) (id : Nat) (w c : Val) (op : POp) (h : ours op = true) :
    runtime X id w c op = val (popPy X id w c op) := by
  have hb : ∀ n f, n ∉ inplaceNames → n ≠ "__len__" → n ∉ checkedNames → PyDict.get? Proxy.ProxyPy.methods n = some f →
      ∀ h args, callMethod X h n (.proxy id w c) args = run (lang X h) f (.v (.proxy id w c) :: args.map .v) := by
    intro n f h1 h2 h3 h4 o args
    rw [callMethod, method_body h1 h2 h3, h4]
    rfl
  have hc : ∀ n args r, n ∉ inplaceNames → n ∈ checkedNames → n ∉ ["__setitem__", "__delitem__", "__contains__", "__len__"] →
      (∀ w, baseOp n args w = r w) → callMethod X user n (.proxy id w c) args = val (checkNamePy X id w c n r) :=
    fun n args r h1 h2 h3 h4 => call_checked_method X id w c n args r h1 h2 h3 h4
  cases op with
  | getattr n inside =>
    show M.tryCatch _ _ _ = _
    rw [hb "__getattribute__" Proxy.ProxyPy.__getattribute__ (by decide) (by decide) (by decide) rfl,
      hb "__getattr__" Proxy.ProxyPy.__getattr__ (by decide) (by decide) (by decide) rfl]
    show M.tryCatch (run _ _ [.v (.proxy id w c), .v (.str 0 n)]) _ (fun _ => run _ _ [.v (.proxy id w c), .v (.str 0 n)]) = _
    rw [C78_getattribute, C78_getattr]
    have hs : PyC.same (if inside then .v (.proxy id w c) else .v .none) (.v (.proxy id w c)) = inside := by
      cases inside <;> simp [PyC.same]
    rw [hs]
    apply ext_fork
    intro s
    unfold popPy getattrPy
    pysteps
    refine fork_ext (fun v s' hv => ?_) (fun e s' he => ?_)
    · pysteps
    · cases e.isAttr <;> pysteps
  | setattr n x =>
    show dropped _ = _
    rw [hb "__setattr__" Proxy.ProxyPy.__setattr__ (by decide) (by decide) (by decide) rfl]
    show dropped (run _ _ [.v (.proxy id w c), .v (.str 0 n), .v x]) = _
    rw [C78_setattr]
    apply ext_fork
    intro s
    unfold popPy setattrPy dropped
    by_cases h1 : n = "_wrapped"
    · pysteps [h1]
    by_cases h2 : n = "_checker"
    · pysteps [h2]
    pyforks [h1, h2]
  | delattr n =>
    show dropped _ = _
    rw [hb "__delattr__" Proxy.ProxyPy.__delattr__ (by decide) (by decide) (by decide) rfl]
    show dropped (run _ _ [.v (.proxy id w c), .v (.str 0 n)]) = _
    rw [C78_delattr]
    apply ext_fork
    intro s
    unfold popPy delattrPy dropped
    by_cases h1 : n = "_wrapped" ∨ n = "_checker"
    · pysteps [h1]
    pyforks [h1]
  | unop u => exact hc u.op [] _ (by cases u <;> decide) (by cases u <;> decide) (by cases u <;> decide) (un_op u)
  | call args => exact hc "__call__" args _ (by decide) (by decide) (by decide) (fun _ => rfl)
  | getitem k => exact hc "__getitem__" [k] _ (by decide) (by decide) (by decide) (fun _ => rfl)
  | setitem k x =>
    show dropped (callMethod _ _ _ _ _) = _
    rw [callMethod, method_checked (by decide) (by decide) (by decide)]
    show dropped (runIn _ _ _ _ _) = _
    rw [C78_wrapper]
    apply ext_fork
    intro s
    unfold popPy checkNameNonePy dropped
    pyforks [baseResult, set_op, del_op, contains_op]
  | delitem k =>
    show dropped (callMethod _ _ _ _ _) = _
    rw [callMethod, method_checked (by decide) (by decide) (by decide)]
    show dropped (runIn _ _ _ _ _) = _
    rw [C78_wrapper]
    apply ext_fork
    intro s
    unfold popPy checkNameNonePy dropped
    pyforks [baseResult, set_op, del_op, contains_op]
  | contains x => cases h
  | len =>
    show asLength (callMethod _ _ _ _ _) = _
    rw [callMethod, method_len]
    show asLength (runIn _ _ _ _ _) = _
    rw [C78_wrapper]
    apply ext_fork
    intro s
    unfold popPy asLength
    pyforks [baseResult, len_op]
    rename_i hl
    unfold fork
    rw [len_twice hl]
    rfl
  | iter => exact hc "__iter__" [] _ (by decide) (by decide) (by decide) (fun _ => rfl)
  | next => exact hc "__next__" [] _ (by decide) (by decide) (by decide) (fun _ => rfl)
  | binL b o => exact hc b.op [o] _ (by cases b <;> decide) (by cases b <;> decide) (by cases b <;> decide) (bin_left b o)
  | binR b o =>
    have ho : o.isProxy = false := by simpa [ours] using h
    have hp : popPy X id w c (.binR b o) = checkNamePy X id w c b.rop (fun w => .binop b.op o w) := by
      cases o <;> first | rfl | cases ho
    rw [hp]
    exact hc b.rop [o] _ (by cases b <;> decide) (by cases b <;> decide) (by cases b <;> decide) (bin_right b o)
  | pow y m => exact hc "__pow__" [y, m] _ (by decide) (by decide) (by decide) (fun _ => rfl)
  | rpow x m =>
    have ho : x.isProxy = false := by simpa [ours] using h
    have hp : popPy X id w c (.rpow x m) = checkNamePy X id w c "__rpow__" (fun w => .pow x w m) := by
      cases x <;> first | rfl | cases ho
    rw [hp]
    exact hc "__rpow__" [x, m] _ (by decide) (by decide) (by decide) (fun _ => rfl)
  | pow3 x y => cases h
  | inplace b o =>
    show callMethod _ _ _ _ _ = _
    rw [callMethod, method_inplace (in_op b)]
    exact C78_inplace X id w c o b
  | compare b o =>
    show callMethod _ _ _ _ _ = _
    rw [hb b.op (compareFn b) (by cases b <;> decide) (by cases b <;> decide) (by cases b <;> decide) (by cases b <;> rfl)]
    exact C78_compare X id w c o b
  | hash =>
    show callMethod X user "__hash__" (.proxy id w c) [] = _
    rw [hb "__hash__" Proxy.ProxyPy.__hash__ (by decide) (by decide) (by decide) rfl]
    exact C78_hash X id w c
  | bool =>
    show callMethod X user "__bool__" (.proxy id w c) [] = _
    rw [hb "__bool__" Proxy.ProxyPy.__bool__ (by decide) (by decide) (by decide) rfl]
    exact C78_bool X id w c
  | lengthHint =>
    show callMethod X user "__length_hint__" (.proxy id w c) [] = _
    rw [hb "__length_hint__" Proxy.ProxyPy.__length_hint__ (by decide) (by decide) (by decide) rfl]
    exact C78_length_hint X id w c
  | str =>
    show asText X (callMethod _ _ _ _ _) = _
    rw [hb "__str__" Proxy.ProxyPy.__str__ (by decide) (by decide) (by decide) rfl]
    exact C78_str X id w c
  | repr =>
    show asText X (callMethod _ _ _ _ _) = _
    rw [hb "__repr__" Proxy.ProxyPy.__repr__ (by decide) (by decide) (by decide) rfl]
    exact C78_repr X id w c

/-- `x in proxy`: the same checks, operations, exceptions and final state; the runtime takes the
truth value of the result, which the model gives directly. -/
theorem C78_contains (X : Ctx A) (id : Nat) (w c x : Val) :
    dropped (runtime X id w c (.contains x)) = dropped (val (popPy X id w c (.contains x))) := by
  show dropped (callMethod X user "__contains__" (.proxy id w c) [x]) = _
  rw [callMethod, method_checked (by decide) (by decide) (by decide)]
  show dropped (runIn _ _ _ _ _) = _
  rw [C78_wrapper]
  apply ext_fork
  intro s
  unfold popPy dropped
  pyforks [baseResult, set_op, del_op, contains_op]

end ZS.Props
