import Verif.Spec.CMediation

/-!
# Following the log of calls
-/

namespace ZS.CM
variable {α β : Type} {E : Env}

/-- Whenever the code ends the fields of checkers are as before, and result and new calls (the earliest first) are as described. -/
def Leaves (x : C α) (m : Mem) (P : α → List Ask → Prop) : Prop :=
  ∀ a m', x m = .ok a m' → m'.getperms = m.getperms ∧ ∃ l, m'.asked = l.reverse ++ m.asked ∧ P a l

namespace Leaves
variable {m : Mem} {P : α → List Ask → Prop}

theorem mono {P' : α → List Ask → Prop} {x : C α} (h : Leaves x m P) (hp : ∀ a l, P a l → P' a l) : Leaves x m P' := by
  intro a m' hx
  obtain ⟨h1, l, h2, h3⟩ := h a m' hx
  exact ⟨h1, l, h2, hp a l h3⟩

theorem bind {x : C α} {k : α → C β} {Q : β → List Ask → Prop}
    (h : Leaves x m fun a l => ∀ m', m'.getperms = m.getperms → Leaves (k a) m' fun b l' => Q b (l ++ l')) : Leaves (x >>= k) m Q := by
  intro b m2 hx
  have hx' : (match x m with
    | .ok a m => k a m
    | .fault f m => .fault f m
    | .diverge => .diverge) = Out.ok b m2 := hx
  cases hm : x m with
  | fault f m' => rw [hm] at hx'; cases hx'
  | diverge => rw [hm] at hx'; cases hx'
  | ok a m1 =>
    rw [hm] at hx'
    obtain ⟨h1, l, h2, h3⟩ := h a m1 hm
    obtain ⟨h4, l', h5, h6⟩ := h3 m1 h1 b m2 hx'
    exact ⟨h4.trans h1, l ++ l', by rw [h5, h2, List.reverse_append, List.append_assoc], h6⟩

theorem pure {a : α} (h : P a []) : Leaves (Pure.pure a) m P := by
  intro a' m' hx
  cases hx
  exact ⟨rfl, [], rfl, h⟩

theorem fail {f : Fault} : Leaves (CM.fail f) m P := by
  intro a' m' hx
  cases hx

theorem use {o : Nat} {P : Unit → List Ask → Prop} (h : P () []) : Leaves (use E o) m P := by
  intro a' m' hx
  unfold CM.use at hx
  split at hx
  · cases hx; exact ⟨rfl, [], rfl, h⟩
  · cases hx

theorem useAll {l : List Nat} {P : Unit → List Ask → Prop} (h : P () []) : Leaves (useAll E l) m P := by
  induction l generalizing m with
  | nil => exact .pure h
  | cons o r ih => exact .bind (.use fun m' _ => ih)

theorem consult {k : Call} {f : Fn} {args : List Nat} {P : Reply → List Ask → Prop} (h : ∀ r e, P r [⟨f, args, e, r⟩]) :
    Leaves (consult E k f args) m P := by
  intro a m' hx
  cases hx
  exact ⟨rfl, _, rfl, h _ _⟩

theorem setErr {b : Bool} {e : Raised} {P : Unit → List Ask → Prop} (h : P () []) : Leaves (setErr b e) m P := by
  intro a m' hx
  cases hx
  exact ⟨rfl, [], rfl, h⟩

theorem gain {o : Nat} {P : Unit → List Ask → Prop} (h : P () []) : Leaves (gain o) m P := by
  intro a m' hx
  cases hx
  exact ⟨rfl, [], rfl, h⟩

theorem incref {o : Nat} {P : Unit → List Ask → Prop} (h : P () []) : Leaves (incref E o) m P := by
  refine .bind (.use fun m' _ => ?_)
  intro a m' hx
  cases hx
  exact ⟨rfl, [], rfl, h⟩

theorem give {o : Nat} {P : Unit → List Ask → Prop} (h : P () []) : Leaves (give o) m P := by
  intro a m' hx
  unfold CM.give at hx
  split at hx
  · cases hx
  · cases hx; exact ⟨rfl, [], rfl, h⟩

theorem decref {o : Nat} {P : Unit → List Ask → Prop} (h : ∀ e r, P () [⟨.destroy, [o], e, r⟩]) : Leaves (decref E o) m P :=
  bind (give fun _ _ => bind (consult fun r e _ _ => pure (h e r)))

theorem ite {p : Prop} [Decidable p] {x y : C α} (hx : p → Leaves x m P) (hy : ¬ p → Leaves y m P) : Leaves (if p then x else y) m P := by
  split
  · exact hx ‹_›
  · exact hy ‹_›

theorem callObj {k : Call} {f : Fn} {args : List Nat} {P : Ptr → List Ask → Prop} (hn : ∀ e r, r.null = true → P .none [⟨f, args, e, r⟩])
    (ho : ∀ e r, r.null = false → P (some r.obj) [⟨f, args, e, r⟩]) : Leaves (callObj E k f args) m P :=
  bind (useAll fun _ _ => bind (consult fun r e _ _ => ite
    (fun h => bind (setErr fun _ _ => pure (hn e r h)))
    (fun h => bind (gain fun _ _ => pure (ho e r (Bool.eq_false_iff.2 h))))))

theorem callNext {o : Nat} {P : Ptr → List Ask → Prop} (hn : ∀ e r, r.null = true → P .none [⟨.user (.special "__next__"), [o], e, r⟩])
    (ho : ∀ e r, r.null = false → P (some r.obj) [⟨.user (.special "__next__"), [o], e, r⟩]) : Leaves (callNext E o) m P :=
  bind (use fun _ _ => bind (consult fun r e _ _ => ite
    (fun h => bind (setErr fun _ _ => pure (hn e r h)))
    (fun h => bind (gain fun _ _ => pure (ho e r (Bool.eq_false_iff.2 h))))))

theorem callInt {k : Call} {f : Fn} {args : List Nat} {P : Int → List Ask → Prop} (h : ∀ e r, P r.num [⟨f, args, e, r⟩]) :
    Leaves (callInt E k f args) m P :=
  bind (useAll fun _ _ => bind (consult fun r e _ _ => ite (fun _ => bind (setErr fun _ _ => pure (h e r))) (fun _ => pure (h e r))))

theorem callHash {o : Nat} {P : Int → List Ask → Prop} (h : ∀ e r, P r.num [⟨.user (.special "__hash__"), [o], e, r⟩]) :
    Leaves (callHash E o) m P :=
  bind (useAll fun _ _ => bind (consult fun r e _ _ => ite (fun _ => bind (setErr fun _ _ => pure (h e r))) (fun _ => pure (h e r))))

theorem callTest {f : Fn} {args : List Nat} {P : Bool → List Ask → Prop} (h : ∀ e r, P (decide (r.num ≠ 0)) [⟨f, args, e, r⟩]) :
    Leaves (callTest E f args) m P :=
  bind (useAll fun _ _ => bind (consult fun r e _ _ => pure (h e r)))

theorem dictGet {d key : Nat} {P : Ptr → List Ask → Prop} (hn : ∀ e r, r.null = true → P .none [⟨.dictGet, [d, key], e, r⟩])
    (ho : ∀ e r, r.null = false → P (some r.obj) [⟨.dictGet, [d, key], e, r⟩]) : Leaves (dictGet E d key) m P := by
  refine bind (useAll fun _ _ => bind (consult fun r e _ _ => ite (fun h => pure (hn e r h)) fun h => ?_))
  intro a m' hx
  cases hx
  exact ⟨rfl, [], rfl, ho e r (Bool.eq_false_iff.2 h)⟩

theorem makeString {o : Nat} {P : Ptr → List Ask → Prop} (hn : ∀ e r, r.null = true → P .none [⟨.utf8, [o], e, r⟩])
    (ho : ∀ e r, r.null = false → P (some r.obj) [⟨.utf8, [o], e, r⟩]) : Leaves (makeString E o) m P := callObj hn ho

theorem readNull {P : List Char → List Ask → Prop} : Leaves (readText E .none) m P := fail

theorem readText {o : Nat} {P : List Char → List Ask → Prop} (h : P (E.bytes o) []) : Leaves (readText E (some o)) m P :=
  bind (use fun _ _ => pure h)

theorem loadGetperms {o : Nat} {P : Ptr → List Ask → Prop} (h : P (m.getperms o) []) : Leaves (loadGetperms o) m P := by
  intro a m' hx
  cases hx
  exact ⟨rfl, [], rfl, h⟩

theorem loadSetperms {o : Nat} {P : Ptr → List Ask → Prop} (h : P (m.setperms o) []) : Leaves (loadSetperms o) m P := by
  intro a m' hx
  cases hx
  exact ⟨rfl, [], rfl, h⟩

end Leaves

theorem NoUser.nil : NoUser [] := fun _ h => nomatch h

theorem NoUser.append {l l' : List Ask} (h : NoUser l) (h' : NoUser l') : NoUser (l ++ l') := by
  intro a ha
  rcases List.mem_append.1 ha with ha | ha
  · exact h a ha
  · exact h' a ha

theorem NoUser.single {f : Fn} {args : List Nat} {e : Raised} {r : Reply} (h : (⟨f, args, e, r⟩ : Ask).isUser = false) :
    NoUser [⟨f, args, e, r⟩] := by
  intro a ha
  cases List.mem_singleton.1 ha
  exact h

/-- The code carries out nothing for the user and leaves the fields of checkers alone. -/
def Quiet (x : C α) : Prop := ∀ m, Leaves x m fun _ l => NoUser l

namespace Quiet

theorem bind {x : C α} {k : α → C β} (hx : Quiet x) (hk : ∀ a, Quiet (k a)) : Quiet (x >>= k) :=
  fun m => .bind ((hx m).mono fun a _ hl m' _ => (hk a m').mono fun _ _ hl' => hl.append hl')

theorem pure (a : α) : Quiet (Pure.pure a : C α) := fun _ => .pure .nil

theorem fail (f : Fault) : Quiet (CM.fail f : C α) := fun _ => .fail

theorem use (o : Nat) : Quiet (use E o) := fun _ => .use .nil

theorem useAll (l : List Nat) : Quiet (useAll E l) := fun _ => .useAll .nil

theorem consult (k : Call) (f : Fn) (l : List Nat) (hf : ∀ e r, (⟨f, l, e, r⟩ : Ask).isUser = false) : Quiet (consult E k f l) :=
  fun _ => .consult fun r e => .single (hf e r)

theorem setErr (b : Bool) (e : Raised) : Quiet (setErr b e) := fun _ => .setErr .nil

theorem clearErr : Quiet clearErr := setErr _ _

theorem setString (e t : String) : Quiet (setString E e t) := setErr _ _

theorem gain (o : Nat) : Quiet (gain o) := fun _ => .gain .nil

theorem incref (o : Nat) : Quiet (incref E o) := fun _ => .incref .nil

theorem give (o : Nat) : Quiet (give o) := fun _ => .give .nil

theorem decref (o : Nat) : Quiet (decref E o) := fun _ => .decref fun _ _ => .single rfl

theorem xdecref (p : Ptr) : Quiet (xdecref E p) := by
  cases p with
  | none => exact pure ()
  | some o => exact decref o

theorem ite {p : Prop} [Decidable p] {x y : C α} (hx : Quiet x) (hy : Quiet y) : Quiet (if p then x else y) := by
  split
  · exact hx
  · exact hy

theorem callObj (k : Call) (f : Fn) (l : List Nat) (hf : ∀ e r, (⟨f, l, e, r⟩ : Ask).isUser = false) : Quiet (callObj E k f l) :=
  fun _ => .callObj (fun e r _ => .single (hf e r)) fun e r _ => .single (hf e r)

theorem callInt (k : Call) (f : Fn) (l : List Nat) (hf : ∀ e r, (⟨f, l, e, r⟩ : Ask).isUser = false) : Quiet (callInt E k f l) :=
  fun _ => .callInt fun e r => .single (hf e r)

theorem callTest (f : Fn) (l : List Nat) (hf : ∀ e r, (⟨f, l, e, r⟩ : Ask).isUser = false) : Quiet (callTest E f l) :=
  fun _ => .callTest fun e r => .single (hf e r)

theorem dictGet (d key : Nat) : Quiet (dictGet E d key) :=
  fun _ => .dictGet (fun _ _ _ => .single rfl) fun _ _ _ => .single rfl

theorem makeString (o : Nat) : Quiet (makeString E o) := callObj _ _ _ fun _ _ => rfl

theorem readText (p : Ptr) : Quiet (readText E p) := by
  cases p with
  | none => exact fail _
  | some o => exact bind (use o) fun _ => pure _

theorem deref (p : Ptr) : Quiet (deref p) := by
  cases p with
  | none => exact fail _
  | some o => exact pure o

theorem loadGetperms (o : Nat) : Quiet (loadGetperms o) := fun _ => .loadGetperms .nil

theorem loadSetperms (o : Nat) : Quiet (loadSetperms o) := fun _ => .loadSetperms .nil

theorem setObject (a b : Nat) : Quiet (setObject E a b) := bind (useAll _) fun _ => setErr _ _

theorem lookup (d : Ptr) (o : Nat) : Quiet (lookup E d o) := by
  cases d with
  | none => exact pure _
  | some d => exact dictGet d o

end Quiet

/-- One step along the statements of a function; extended below. -/
syntax "qstep" : tactic
macro_rules | `(tactic| qstep) => `(tactic| split)
macro_rules | `(tactic| qstep) => `(tactic| with_reducible refine Quiet.ite ?_ ?_)
macro_rules | `(tactic| qstep) => `(tactic| with_reducible refine Quiet.bind ?_ (fun _ => ?_))
macro_rules | `(tactic| qstep) => `(tactic| with_reducible exact Quiet.pure _)
macro_rules | `(tactic| qstep) => `(tactic| with_reducible exact Quiet.fail _)
macro_rules | `(tactic| qstep) => `(tactic| with_reducible exact Quiet.use _)
macro_rules | `(tactic| qstep) => `(tactic| with_reducible exact Quiet.useAll _)
macro_rules | `(tactic| qstep) => `(tactic| with_reducible exact Quiet.consult _ _ _ fun _ _ => rfl)
macro_rules | `(tactic| qstep) => `(tactic| with_reducible exact Quiet.setErr _ _)
macro_rules | `(tactic| qstep) => `(tactic| with_reducible exact Quiet.clearErr)
macro_rules | `(tactic| qstep) => `(tactic| with_reducible exact Quiet.setString _ _)
macro_rules | `(tactic| qstep) => `(tactic| with_reducible exact Quiet.incref _)
macro_rules | `(tactic| qstep) => `(tactic| with_reducible exact Quiet.gain _)
macro_rules | `(tactic| qstep) => `(tactic| with_reducible exact Quiet.give _)
macro_rules | `(tactic| qstep) => `(tactic| with_reducible exact Quiet.decref _)
macro_rules | `(tactic| qstep) => `(tactic| with_reducible exact Quiet.xdecref _)
macro_rules | `(tactic| qstep) => `(tactic| with_reducible exact Quiet.callObj _ _ _ fun _ _ => rfl)
macro_rules | `(tactic| qstep) => `(tactic| with_reducible exact Quiet.callInt _ _ _ fun _ _ => rfl)
macro_rules | `(tactic| qstep) => `(tactic| with_reducible exact Quiet.callTest _ _ fun _ _ => rfl)
macro_rules | `(tactic| qstep) => `(tactic| with_reducible exact Quiet.dictGet _ _)
macro_rules | `(tactic| qstep) => `(tactic| with_reducible exact Quiet.makeString _)
macro_rules | `(tactic| qstep) => `(tactic| with_reducible exact Quiet.readText _)
macro_rules | `(tactic| qstep) => `(tactic| with_reducible exact Quiet.deref _)
macro_rules | `(tactic| qstep) => `(tactic| with_reducible exact Quiet.loadGetperms _)
macro_rules | `(tactic| qstep) => `(tactic| with_reducible exact Quiet.loadSetperms _)
macro_rules | `(tactic| qstep) => `(tactic| with_reducible exact Quiet.setObject _ _)
macro_rules | `(tactic| qstep) => `(tactic| with_reducible exact Quiet.lookup _ _)
macro "quiet" : tactic => `(tactic| repeat' qstep)

namespace Quiet
theorem returnNone : Quiet (CM.returnNone E) := by
  unfold CM.returnNone; quiet
macro_rules | `(tactic| qstep) => `(tactic| with_reducible exact Quiet.returnNone)

theorem parse (l : List Nat) : Quiet (CM.parse E l) := by
  unfold CM.parse; quiet
macro_rules | `(tactic| qstep) => `(tactic| with_reducible exact Quiet.parse _)

theorem permissionId (self : Nat) (name : Nat) : Quiet (CM.permissionId E self name) := by
  unfold CM.permissionId; quiet
macro_rules | `(tactic| qstep) => `(tactic| with_reducible exact Quiet.permissionId _ _)

theorem setattrPermissionId (self : Nat) (name : Nat) : Quiet (CM.setattrPermissionId E self name) := by
  unfold CM.setattrPermissionId; quiet
macro_rules | `(tactic| qstep) => `(tactic| with_reducible exact Quiet.setattrPermissionId _ _)

theorem raiseForbidden (a : Nat) (b : Nat) : Quiet (CM.raiseForbidden E a b) := by
  unfold CM.raiseForbidden; quiet
macro_rules | `(tactic| qstep) => `(tactic| with_reducible exact Quiet.raiseForbidden _ _)

theorem raiseUnauthorized (a : Nat) (b : Nat) (c : Nat) : Quiet (CM.raiseUnauthorized E a b c) := by
  unfold CM.raiseUnauthorized; quiet
macro_rules | `(tactic| qstep) => `(tactic| with_reducible exact Quiet.raiseUnauthorized _ _ _)

theorem checkPermission (a : Nat) (b : Nat) (c : Nat) : Quiet (CM.checkPermission E a b c) := by
  unfold CM.checkPermission; quiet
macro_rules | `(tactic| qstep) => `(tactic| with_reducible exact Quiet.checkPermission _ _ _)

theorem isOperator (a : Nat) : Quiet (CM.isOperator E a) := by
  unfold CM.isOperator; quiet
macro_rules | `(tactic| qstep) => `(tactic| with_reducible exact Quiet.isOperator _)

theorem checkUndeclared (a : Nat) (b : Nat) : Quiet (CM.checkUndeclared E a b) := by
  unfold CM.checkUndeclared; quiet
macro_rules | `(tactic| qstep) => `(tactic| with_reducible exact Quiet.checkUndeclared _ _)

theorem checkNamed (a : Nat) (b : Nat) (c : Nat) : Quiet (CM.checkNamed E a b c) := by
  unfold CM.checkNamed; quiet
macro_rules | `(tactic| qstep) => `(tactic| with_reducible exact Quiet.checkNamed _ _ _)

theorem checkInt (a : Nat) (b : Nat) (c : Ptr) : Quiet (CM.checkInt E a b c) := by
  unfold CM.checkInt; quiet
macro_rules | `(tactic| qstep) => `(tactic| with_reducible exact Quiet.checkInt _ _ _)

theorem checkerCheck (a : Nat) (b : Nat) (c : Nat) : Quiet (CM.checkerCheck E a b c) := by
  unfold CM.checkerCheck; quiet
macro_rules | `(tactic| qstep) => `(tactic| with_reducible exact Quiet.checkerCheck _ _ _)

theorem checkerCheckSetattr (a : Nat) (b : Nat) (c : Nat) : Quiet (CM.checkerCheckSetattr E a b c) := by
  unfold CM.checkerCheckSetattr; quiet
macro_rules | `(tactic| qstep) => `(tactic| with_reducible exact Quiet.checkerCheckSetattr _ _ _)

theorem selectLoop (object : Nat) : ∀ fuel checker : Nat, Quiet (CM.selectLoop E object fuel checker)
  | 0, _ => fun _ _ _ h => by cases h
  | n + 1, checker => by
    have ih := selectLoop object n
    unfold CM.selectLoop
    quiet
    exact ih _
macro_rules | `(tactic| qstep) => `(tactic| with_reducible exact Quiet.selectLoop _ _ _)

theorem isUnprotectedException (a : Nat) (b : Nat) : Quiet (CM.isUnprotectedException E a b) := by
  unfold CM.isUnprotectedException; quiet
macro_rules | `(tactic| qstep) => `(tactic| with_reducible exact Quiet.isUnprotectedException _ _)

theorem selectChecker (fuel : Nat) (a : Nat) : Quiet (CM.selectChecker E fuel a) := by
  unfold CM.selectChecker; quiet
macro_rules | `(tactic| qstep) => `(tactic| with_reducible exact Quiet.selectChecker _ _)

theorem makeProxy (a : Nat) (b : Nat) : Quiet (CM.makeProxy E a b) := by
  unfold CM.makeProxy; quiet
macro_rules | `(tactic| qstep) => `(tactic| with_reducible exact Quiet.makeProxy _ _)

theorem checkerProxy (fuel : Nat) (a : Nat) : Quiet (CM.checkerProxy E fuel a) := by
  unfold CM.checkerProxy; quiet
macro_rules | `(tactic| qstep) => `(tactic| with_reducible exact Quiet.checkerProxy _ _)

theorem check (a : Nat) (s : String) (b : Nat) : Quiet (CM.check E a s b) := by
  unfold CM.check; dsimp only; quiet
macro_rules | `(tactic| qstep) => `(tactic| with_reducible exact Quiet.check _ _ _)

theorem protect (fuel : Nat) (a : Nat) (b : Nat) : Quiet (CM.protect E fuel a b) := by
  unfold CM.protect; quiet
macro_rules | `(tactic| qstep) => `(tactic| with_reducible exact Quiet.protect _ _ _)

theorem proxyResult (fuel : Nat) (a : Nat) (p : Ptr) : Quiet (CM.proxyResult E fuel a p) := by
  unfold CM.proxyResult; quiet
macro_rules | `(tactic| qstep) => `(tactic| with_reducible exact Quiet.proxyResult _ _ _)

theorem reprText (a : Nat) (b : Nat) (p : Ptr) : Quiet (CM.reprText E a b p) := by
  unfold CM.reprText; quiet
macro_rules | `(tactic| qstep) => `(tactic| with_reducible exact Quiet.reprText _ _ _)

theorem defaultRepr (a : Nat) : Quiet (CM.defaultRepr E a) := by
  unfold CM.defaultRepr; quiet
macro_rules | `(tactic| qstep) => `(tactic| with_reducible exact Quiet.defaultRepr _)

theorem proxyNew (a : Nat) (b : Nat) (c : Nat) : Quiet (CM.proxyNew E a b c) := by
  unfold CM.proxyNew; quiet
macro_rules | `(tactic| qstep) => `(tactic| with_reducible exact Quiet.proxyNew _ _ _)


theorem getChecker (a : Nat) : Quiet (CM.getChecker E a) := by
  unfold CM.getChecker; quiet

theorem getObject (a : Nat) : Quiet (CM.getObject E a) := by
  unfold CM.getObject; quiet

end Quiet
end ZS.CM
