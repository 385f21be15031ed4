import Verif.Spec.CMem
import Verif.Spec.CEntries

/-!
# Which functions change the fields of checkers, and that calls are only ever added to the list
-/

namespace ZS.CM

/-- Steps of the machine that T allows: everything except for what is stored in the fields of checkers. -/
class Harmless (T : Mem → Mem → Prop) : Prop where
  refl : ∀ m, T m m
  trans : ∀ {m m' m''}, T m m' → T m' m'' → T m m''
  own : ∀ m f, T m { m with own := f }
  loose : ∀ m f, T m { m with loose := f }
  err : ∀ m b e, T m { m with err := b, raised := e }
  call : ∀ m c k f, T m { m with log := c :: m.log, asked := k :: m.asked, loose := f }

/-- The code makes only steps along T. -/
def Along (T : Mem → Mem → Prop) (x : C α) : Prop := ∀ m a m', x m = .ok a m' → T m m'

namespace Along
variable {α β : Type} {E : Env} {T : Mem → Mem → Prop} [Harmless T]

theorem bind {x : C α} {k : α → C β} (hx : Along T x) (hk : ∀ a, Along T (k a)) : Along T (x >>= k) := by
  intro m b m'' h
  have h' : (match x m with | .ok a m => k a m | .fault f m => .fault f m | .diverge => .diverge : Out β) = .ok b m'' := h
  cases hxm : x m with
  | ok a m' =>
    rw [hxm] at h'
    exact Harmless.trans (hx m a m' hxm) (hk a m' b m'' h')
  | fault f m' => rw [hxm] at h'; cases h'
  | diverge => rw [hxm] at h'; cases h'

theorem pure (a : α) : Along T (Pure.pure a : C α) := by
  intro m b m' h
  cases h
  exact Harmless.refl _

omit [Harmless T] in
theorem fail (f : Fault) : Along T (CM.fail f : C α) := fun _ _ _ h => by cases h

theorem use (o : Nat) : Along T (use E o) := by
  intro m b m' h
  unfold CM.use at h
  split at h
  · cases h; exact Harmless.refl _
  · cases h

theorem useAll (l : List Nat) : Along T (useAll E l) := by
  induction l with
  | nil => exact pure ()
  | cons o r ih => exact bind (use o) fun _ => ih

theorem consult (k : Call) (f : Fn) (l : List Nat) : Along T (consult E k f l) := by
  intro m b m' h
  cases h
  exact Harmless.call ..

theorem setErr (b : Bool) (e : Raised) : Along T (setErr b e) := by
  intro m b m' h
  cases h
  exact Harmless.err ..

theorem clearErr : Along T clearErr := setErr _ _

theorem setString (e t : String) : Along T (setString E e t) := setErr _ _

theorem gain (o : Nat) : Along T (gain o) := by
  intro m b m' h
  cases h
  exact Harmless.own ..

theorem incref (o : Nat) : Along T (incref E o) := bind (use o) fun _ => gain o

theorem give (o : Nat) : Along T (give o) := by
  intro m b m' h
  unfold CM.give at h
  split at h
  · cases h
  · cases h; exact Harmless.own ..

theorem decref (o : Nat) : Along T (decref E o) := bind (give o) fun _ => bind (consult _ _ _) fun _ => pure _

theorem xdecref (p : Ptr) : Along T (xdecref E p) := by
  cases p with
  | none => exact pure ()
  | some o => exact decref o

omit [Harmless T] in
theorem ite {p : Prop} [Decidable p] {x y : C α} (hx : Along T x) (hy : Along T y) : Along T (if p then x else y) := by
  split
  · exact hx
  · exact hy

theorem callObj (k : Call) (f : Fn) (l : List Nat) : Along T (callObj E k f l) :=
  bind (useAll l) fun _ => bind (consult k _ _) fun _ => ite (bind (setErr _ _) fun _ => pure _) (bind (gain _) fun _ => pure _)

theorem api (u : UserFn) (l : List Nat) : Along T (api E u l) := callObj _ _ _

theorem callNext (o : Nat) : Along T (callNext E o) :=
  bind (use o) fun _ => bind (consult _ _ _) fun _ => ite (bind (setErr _ _) fun _ => pure _) (bind (gain _) fun _ => pure _)

theorem callInt (k : Call) (f : Fn) (l : List Nat) : Along T (callInt E k f l) :=
  bind (useAll l) fun _ => bind (consult k _ _) fun _ => ite (bind (setErr _ _) fun _ => pure _) (pure _)

theorem callHash (o : Nat) : Along T (callHash E o) :=
  bind (useAll _) fun _ => bind (consult _ _ _) fun _ => ite (bind (setErr _ _) fun _ => pure _) (pure _)

theorem callTest (f : Fn) (l : List Nat) : Along T (callTest E f l) :=
  bind (useAll l) fun _ => bind (consult _ _ _) fun _ => pure _

theorem dictGet (d key : Nat) : Along T (dictGet E d key) := by
  refine bind (useAll _) fun _ => bind (consult _ _ _) fun r => ite (pure _) (fun m b m' h => ?_)
  cases h
  exact Harmless.loose ..

theorem makeString (o : Nat) : Along T (makeString E o) := callObj _ _ _

theorem readText (p : Ptr) : Along T (readText E p) := by
  cases p with
  | none => exact fail _
  | some o => exact bind (use o) fun _ => pure _

theorem deref (p : Ptr) : Along T (deref p) := by
  cases p with
  | none => exact fail _
  | some o => exact pure o

theorem loadGetperms (o : Nat) : Along T (loadGetperms o) := by
  intro m b m' h
  cases h
  exact Harmless.loose ..

theorem loadSetperms (o : Nat) : Along T (loadSetperms o) := by
  intro m b m' h
  cases h
  exact Harmless.loose ..

theorem setObject (a b : Nat) : Along T (setObject E a b) := bind (useAll _) fun _ => setErr _ _

theorem lookup (d : Ptr) (o : Nat) : Along T (lookup E d o) := by
  cases d with
  | none => exact pure _
  | some d => exact dictGet d o

end Along

/-- One step along the statements of a function; extended below. -/
syntax "fstep" : tactic
macro_rules | `(tactic| fstep) => `(tactic| split)
macro_rules | `(tactic| fstep) => `(tactic| with_reducible refine Along.ite ?_ ?_)
macro_rules | `(tactic| fstep) => `(tactic| with_reducible refine Along.bind ?_ (fun _ => ?_))
macro_rules | `(tactic| fstep) => `(tactic| with_reducible exact Along.pure _)
macro_rules | `(tactic| fstep) => `(tactic| with_reducible exact Along.fail _)
macro_rules | `(tactic| fstep) => `(tactic| with_reducible exact Along.use _)
macro_rules | `(tactic| fstep) => `(tactic| with_reducible exact Along.useAll _)
macro_rules | `(tactic| fstep) => `(tactic| with_reducible exact Along.consult _ _ _)
macro_rules | `(tactic| fstep) => `(tactic| with_reducible exact Along.setErr _ _)
macro_rules | `(tactic| fstep) => `(tactic| with_reducible exact Along.clearErr)
macro_rules | `(tactic| fstep) => `(tactic| with_reducible exact Along.setString _ _)
macro_rules | `(tactic| fstep) => `(tactic| with_reducible exact Along.callHash _)
macro_rules | `(tactic| fstep) => `(tactic| with_reducible exact Along.incref _)
macro_rules | `(tactic| fstep) => `(tactic| with_reducible exact Along.gain _)
macro_rules | `(tactic| fstep) => `(tactic| with_reducible exact Along.give _)
macro_rules | `(tactic| fstep) => `(tactic| with_reducible exact Along.decref _)
macro_rules | `(tactic| fstep) => `(tactic| with_reducible exact Along.xdecref _)
macro_rules | `(tactic| fstep) => `(tactic| with_reducible exact Along.callObj _ _ _)
macro_rules | `(tactic| fstep) => `(tactic| with_reducible exact Along.api _ _)
macro_rules | `(tactic| fstep) => `(tactic| with_reducible exact Along.callNext _)
macro_rules | `(tactic| fstep) => `(tactic| with_reducible exact Along.callInt _ _ _)
macro_rules | `(tactic| fstep) => `(tactic| with_reducible exact Along.callTest _ _)
macro_rules | `(tactic| fstep) => `(tactic| with_reducible exact Along.dictGet _ _)
macro_rules | `(tactic| fstep) => `(tactic| with_reducible exact Along.makeString _)
macro_rules | `(tactic| fstep) => `(tactic| with_reducible exact Along.readText _)
macro_rules | `(tactic| fstep) => `(tactic| with_reducible exact Along.deref _)
macro_rules | `(tactic| fstep) => `(tactic| with_reducible exact Along.loadGetperms _)
macro_rules | `(tactic| fstep) => `(tactic| with_reducible exact Along.loadSetperms _)
macro_rules | `(tactic| fstep) => `(tactic| with_reducible exact Along.setObject _ _)
macro_rules | `(tactic| fstep) => `(tactic| with_reducible exact Along.lookup _ _)
macro "fields" : tactic => `(tactic| repeat' fstep)

namespace Along
variable {E : Env} {T : Mem → Mem → Prop} [Harmless T]

theorem returnNone : Along T (CM.returnNone E) := by
  unfold CM.returnNone; fields
macro_rules | `(tactic| fstep) => `(tactic| with_reducible exact Along.returnNone)

theorem parse (l : List Nat) : Along T (CM.parse E l) := by
  unfold CM.parse; fields
macro_rules | `(tactic| fstep) => `(tactic| with_reducible exact Along.parse _)

theorem permissionId (self : Nat) (name : Nat) : Along T (CM.permissionId E self name) := by
  unfold CM.permissionId; fields
macro_rules | `(tactic| fstep) => `(tactic| with_reducible exact Along.permissionId _ _)

theorem setattrPermissionId (self : Nat) (name : Nat) : Along T (CM.setattrPermissionId E self name) := by
  unfold CM.setattrPermissionId; fields
macro_rules | `(tactic| fstep) => `(tactic| with_reducible exact Along.setattrPermissionId _ _)

theorem raiseForbidden (a : Nat) (b : Nat) : Along T (CM.raiseForbidden E a b) := by
  unfold CM.raiseForbidden; fields
macro_rules | `(tactic| fstep) => `(tactic| with_reducible exact Along.raiseForbidden _ _)

theorem raiseUnauthorized (a : Nat) (b : Nat) (c : Nat) : Along T (CM.raiseUnauthorized E a b c) := by
  unfold CM.raiseUnauthorized; fields
macro_rules | `(tactic| fstep) => `(tactic| with_reducible exact Along.raiseUnauthorized _ _ _)

theorem checkPermission (a : Nat) (b : Nat) (c : Nat) : Along T (CM.checkPermission E a b c) := by
  unfold CM.checkPermission; fields
macro_rules | `(tactic| fstep) => `(tactic| with_reducible exact Along.checkPermission _ _ _)

theorem isOperator (a : Nat) : Along T (CM.isOperator E a) := by
  unfold CM.isOperator; fields
macro_rules | `(tactic| fstep) => `(tactic| with_reducible exact Along.isOperator _)

theorem checkUndeclared (a : Nat) (b : Nat) : Along T (CM.checkUndeclared E a b) := by
  unfold CM.checkUndeclared; fields
macro_rules | `(tactic| fstep) => `(tactic| with_reducible exact Along.checkUndeclared _ _)

theorem checkNamed (a : Nat) (b : Nat) (c : Nat) : Along T (CM.checkNamed E a b c) := by
  unfold CM.checkNamed; fields
macro_rules | `(tactic| fstep) => `(tactic| with_reducible exact Along.checkNamed _ _ _)

theorem checkInt (a : Nat) (b : Nat) (c : Ptr) : Along T (CM.checkInt E a b c) := by
  unfold CM.checkInt; fields
macro_rules | `(tactic| fstep) => `(tactic| with_reducible exact Along.checkInt _ _ _)

theorem checkerCheck (a : Nat) (b : Nat) (c : Nat) : Along T (CM.checkerCheck E a b c) := by
  unfold CM.checkerCheck; fields
macro_rules | `(tactic| fstep) => `(tactic| with_reducible exact Along.checkerCheck _ _ _)

theorem checkerCheckSetattr (a : Nat) (b : Nat) (c : Nat) : Along T (CM.checkerCheckSetattr E a b c) := by
  unfold CM.checkerCheckSetattr; fields
macro_rules | `(tactic| fstep) => `(tactic| with_reducible exact Along.checkerCheckSetattr _ _ _)

theorem selectLoop (object : Nat) : ∀ fuel checker : Nat, Along T (CM.selectLoop E object fuel checker)
  | 0, _ => fun _ _ _ h => by cases h
  | n + 1, checker => by
    have ih := selectLoop object n
    unfold CM.selectLoop
    fields
    exact ih _
macro_rules | `(tactic| fstep) => `(tactic| with_reducible exact Along.selectLoop _ _ _)

theorem isUnprotectedException (a : Nat) (b : Nat) : Along T (CM.isUnprotectedException E a b) := by
  unfold CM.isUnprotectedException; fields
macro_rules | `(tactic| fstep) => `(tactic| with_reducible exact Along.isUnprotectedException _ _)

theorem selectChecker (fuel : Nat) (a : Nat) : Along T (CM.selectChecker E fuel a) := by
  unfold CM.selectChecker; fields
macro_rules | `(tactic| fstep) => `(tactic| with_reducible exact Along.selectChecker _ _)

theorem makeProxy (a : Nat) (b : Nat) : Along T (CM.makeProxy E a b) := by
  unfold CM.makeProxy; fields
macro_rules | `(tactic| fstep) => `(tactic| with_reducible exact Along.makeProxy _ _)

theorem checkerProxy (fuel : Nat) (a : Nat) : Along T (CM.checkerProxy E fuel a) := by
  unfold CM.checkerProxy; fields
macro_rules | `(tactic| fstep) => `(tactic| with_reducible exact Along.checkerProxy _ _)

theorem check (a : Nat) (s : String) (b : Nat) : Along T (CM.check E a s b) := by
  unfold CM.check; dsimp only; fields
macro_rules | `(tactic| fstep) => `(tactic| with_reducible exact Along.check _ _ _)

theorem protect (fuel : Nat) (a : Nat) (b : Nat) : Along T (CM.protect E fuel a b) := by
  unfold CM.protect; fields
macro_rules | `(tactic| fstep) => `(tactic| with_reducible exact Along.protect _ _ _)

theorem proxyResult (fuel : Nat) (a : Nat) (p : Ptr) : Along T (CM.proxyResult E fuel a p) := by
  unfold CM.proxyResult; fields
macro_rules | `(tactic| fstep) => `(tactic| with_reducible exact Along.proxyResult _ _ _)

theorem callNumber (op : String) (a : Nat) : Along T (CM.callNumber E op a) := by
  unfold CM.callNumber; fields
macro_rules | `(tactic| fstep) => `(tactic| with_reducible exact Along.callNumber _ _)

theorem callIpow (a : Nat) (b : Nat) : Along T (CM.callIpow E a b) := by
  unfold CM.callIpow; fields
macro_rules | `(tactic| fstep) => `(tactic| with_reducible exact Along.callIpow _ _)

theorem proxyNew (a : Nat) (b : Nat) (c : Nat) : Along T (CM.proxyNew E a b c) := by
  unfold CM.proxyNew; fields
macro_rules | `(tactic| fstep) => `(tactic| with_reducible exact Along.proxyNew _ _ _)

theorem proxyClear (a : Nat) (p : Ptr) : Along T (CM.proxyClear E a p) := by
  unfold CM.proxyClear; fields
macro_rules | `(tactic| fstep) => `(tactic| with_reducible exact Along.proxyClear _ _)

theorem proxyRichcompare (fuel : Nat) (op : String) (a : Nat) (b : Nat) : Along T (CM.proxyRichcompare E fuel op a b) := by
  unfold CM.proxyRichcompare; fields
macro_rules | `(tactic| fstep) => `(tactic| with_reducible exact Along.proxyRichcompare _ _ _ _)

theorem check1 {op : Nat → C Ptr} (fuel self name : Nat) (h : ∀ a, Along T (op a)) : Along T (CM.check1 E fuel self name op) := by
  unfold CM.check1; fields; exact h _

theorem check2 {op : Nat → Nat → C Ptr} (fuel self other name rname : Nat) (h : ∀ a b, Along T (op a b)) :
    Along T (CM.check2 E fuel self other name rname op) := by
  unfold CM.check2; fields <;> exact h _ _

theorem check2i {op : Nat → Nat → C Ptr} (fuel self other name : Nat) (h : ∀ a b, Along T (op a b)) :
    Along T (CM.check2i E fuel self other name op) := by
  unfold CM.check2i; fields; exact h _ _

theorem proxyIternext (fuel : Nat) (a : Nat) : Along T (CM.proxyIternext E fuel a) := by
  unfold CM.proxyIternext; fields
macro_rules | `(tactic| fstep) => `(tactic| with_reducible exact Along.proxyIternext _ _)

theorem proxyGetattro (fuel : Nat) (a : Nat) (b : Nat) : Along T (CM.proxyGetattro E fuel a b) := by
  unfold CM.proxyGetattro; fields
macro_rules | `(tactic| fstep) => `(tactic| with_reducible exact Along.proxyGetattro _ _ _)

theorem proxySetattro (a : Nat) (b : Nat) (p : Ptr) : Along T (CM.proxySetattro E a b p) := by
  unfold CM.proxySetattro; fields
macro_rules | `(tactic| fstep) => `(tactic| with_reducible exact Along.proxySetattro _ _ _)

theorem reprText (a : Nat) (b : Nat) (p : Ptr) : Along T (CM.reprText E a b p) := by
  unfold CM.reprText; fields
macro_rules | `(tactic| fstep) => `(tactic| with_reducible exact Along.reprText _ _ _)

theorem defaultRepr (a : Nat) : Along T (CM.defaultRepr E a) := by
  unfold CM.defaultRepr; fields
macro_rules | `(tactic| fstep) => `(tactic| with_reducible exact Along.defaultRepr _)

theorem proxyText (a : Nat) (b : String) : Along T (CM.proxyText E a b) := by
  unfold CM.proxyText; fields
macro_rules | `(tactic| fstep) => `(tactic| with_reducible exact Along.proxyText _ _)

theorem proxyHash (a : Nat) : Along T (CM.proxyHash E a) := by
  unfold CM.proxyHash; fields
macro_rules | `(tactic| fstep) => `(tactic| with_reducible exact Along.proxyHash _)

theorem proxyBool (a : Nat) : Along T (CM.proxyBool E a) := by
  unfold CM.proxyBool; fields
macro_rules | `(tactic| fstep) => `(tactic| with_reducible exact Along.proxyBool _)

theorem powWith (fuel : Nat) (a : Nat) (b : Nat) (l : List Nat) : Along T (CM.powWith E fuel a b l) := by
  unfold CM.powWith; fields
macro_rules | `(tactic| fstep) => `(tactic| with_reducible exact Along.powWith _ _ _ _)

theorem proxyPow (fuel : Nat) (a : Nat) (b : Nat) (p : Ptr) : Along T (CM.proxyPow E fuel a b p) := by
  unfold CM.proxyPow; fields
macro_rules | `(tactic| fstep) => `(tactic| with_reducible exact Along.proxyPow _ _ _ _)

theorem proxyLength (a : Nat) : Along T (CM.proxyLength E a) := by
  unfold CM.proxyLength; fields
macro_rules | `(tactic| fstep) => `(tactic| with_reducible exact Along.proxyLength _)

theorem proxyLengthHint (a : Nat) : Along T (CM.proxyLengthHint E a) := by
  unfold CM.proxyLengthHint; fields
macro_rules | `(tactic| fstep) => `(tactic| with_reducible exact Along.proxyLengthHint _)

theorem proxyGetitem (fuel : Nat) (a : Nat) (b : Nat) : Along T (CM.proxyGetitem E fuel a b) := by
  exact check1 _ _ _ fun _ => api _ _
macro_rules | `(tactic| fstep) => `(tactic| with_reducible exact Along.proxyGetitem _ _ _)

theorem proxySetitem (a : Nat) (b : Nat) (p : Ptr) : Along T (CM.proxySetitem E a b p) := by
  unfold CM.proxySetitem; fields
macro_rules | `(tactic| fstep) => `(tactic| with_reducible exact Along.proxySetitem _ _ _)

theorem proxyIgetitem (fuel : Nat) (a : Nat) (i : Int) : Along T (CM.proxyIgetitem E fuel a i) := by
  unfold CM.proxyIgetitem; fields
macro_rules | `(tactic| fstep) => `(tactic| with_reducible exact Along.proxyIgetitem _ _ _)

theorem proxyIsetitem (a : Nat) (i : Int) (p : Ptr) : Along T (CM.proxyIsetitem E a i p) := by
  unfold CM.proxyIsetitem; fields
macro_rules | `(tactic| fstep) => `(tactic| with_reducible exact Along.proxyIsetitem _ _ _)

theorem proxyContains (a : Nat) (b : Nat) : Along T (CM.proxyContains E a b) := by
  unfold CM.proxyContains; fields
macro_rules | `(tactic| fstep) => `(tactic| with_reducible exact Along.proxyContains _ _)

theorem getChecker (a : Nat) : Along T (CM.getChecker E a) := by
  unfold CM.getChecker; fields
macro_rules | `(tactic| fstep) => `(tactic| with_reducible exact Along.getChecker _)

theorem getObject (a : Nat) : Along T (CM.getObject E a) := by
  unfold CM.getObject; fields
macro_rules | `(tactic| fstep) => `(tactic| with_reducible exact Along.getObject _)

theorem returnField (p : Ptr) : Along T (CM.returnField E p) := by
  unfold CM.returnField; fields

end Along

/-- Fields are not overwritten. -/
def SafeFields (m m' : Mem) : Prop :=
  m'.lost = m.lost ∧ (∀ k d, m.getperms k = some d → m'.getperms k = some d) ∧
    (∀ k d, m.setperms k = some d → m'.setperms k = some d)

/-- Calls are only ever added. -/
def Longer (m m' : Mem) : Prop := ∃ l, m'.asked = l ++ m.asked

instance : Harmless SafeFields where
  refl _ := ⟨rfl, fun _ _ h => h, fun _ _ h => h⟩
  trans := fun ⟨h1, h2, h3⟩ ⟨k1, k2, k3⟩ => ⟨k1.trans h1, fun k d h => k2 k d (h2 k d h), fun k d h => k3 k d (h3 k d h)⟩
  own _ _ := ⟨rfl, fun _ _ h => h, fun _ _ h => h⟩
  loose _ _ := ⟨rfl, fun _ _ h => h, fun _ _ h => h⟩
  err _ _ _ := ⟨rfl, fun _ _ h => h, fun _ _ h => h⟩
  call _ _ _ _ := ⟨rfl, fun _ _ h => h, fun _ _ h => h⟩

instance : Harmless Longer where
  refl _ := ⟨[], rfl⟩
  trans := fun ⟨l, h⟩ ⟨l', h'⟩ => ⟨l' ++ l, by rw [h', h, List.append_assoc]⟩
  own _ _ := ⟨[], rfl⟩
  loose _ _ := ⟨[], rfl⟩
  err _ _ _ := ⟨[], rfl⟩
  call _ _ k _ := ⟨[k], rfl⟩

namespace KeepsFields
variable {α : Type} {E : Env}

theorem of {x : C α} (h : Along SafeFields x) : KeepsFields x := h

/-- A field that is NULL may be filled. -/
theorem getGetPermissions (self : Nat) : KeepsFields (CM.getGetPermissions E self) := by
  intro m a m' h
  have h1 : (match m.getperms self with
      | none => do
        let d ← CM.callObj E Call.api .dictNew []
        match d with
          | none => Pure.pure none
          | some d => do
            storeGetperms self (some d)
            let d ← CM.loadGetperms self
            CM.returnField E d
      | some d => CM.returnField E (some d) : C Ptr)
      { m with loose := fun o => decide (m.getperms self = some o) || m.loose o } = .ok a m' := h
  cases hg : m.getperms self with
  | some d =>
    rw [hg] at h1
    have h2 := Along.returnField (T := SafeFields) _ _ _ _ h1
    exact h2
  | none =>
    rw [hg] at h1
    by_cases hr : (E.reply m.log.length).null = true
    · simp [CM.callObj, CM.useAll, CM.consult, CM.setErr, Bind.bind, Pure.pure, hr] at h1
      obtain ⟨_, rfl⟩ := h1
      exact ⟨rfl, fun _ _ h => h, fun _ _ h => h⟩
    · simp [CM.callObj, CM.useAll, CM.consult, CM.gain, Bind.bind, Pure.pure, hr, storeGetperms, givePtr, CM.give, CM.loadGetperms,
        CM.returnField, CM.deref, CM.incref, CM.use, alive, hg] at h1
      obtain ⟨_, rfl⟩ := h1
      refine ⟨rfl, fun k d hk => ?_, fun k d hk => ?_⟩
      · show (if k = self then _ else _) = _
        rw [if_neg (by rintro rfl; rw [hg] at hk; cases hk)]
        exact hk
      · exact hk

/-- A field that is NULL may be filled. -/
theorem getSetPermissions (self : Nat) : KeepsFields (CM.getSetPermissions E self) := by
  intro m a m' h
  have h1 : (match m.setperms self with
      | none => do
        let d ← CM.callObj E Call.api .dictNew []
        match d with
          | none => Pure.pure none
          | some d => do
            storeSetperms self (some d)
            let d ← CM.loadSetperms self
            CM.returnField E d
      | some d => CM.returnField E (some d) : C Ptr)
      { m with loose := fun o => decide (m.setperms self = some o) || m.loose o } = .ok a m' := h
  cases hg : m.setperms self with
  | some d =>
    rw [hg] at h1
    have h2 := Along.returnField (T := SafeFields) _ _ _ _ h1
    exact h2
  | none =>
    rw [hg] at h1
    by_cases hr : (E.reply m.log.length).null = true
    · simp [CM.callObj, CM.useAll, CM.consult, CM.setErr, Bind.bind, Pure.pure, hr] at h1
      obtain ⟨_, rfl⟩ := h1
      exact ⟨rfl, fun _ _ h => h, fun _ _ h => h⟩
    · simp [CM.callObj, CM.useAll, CM.consult, CM.gain, Bind.bind, Pure.pure, hr, storeSetperms, givePtr, CM.give, CM.loadSetperms,
        CM.returnField, CM.deref, CM.incref, CM.use, alive, hg] at h1
      obtain ⟨_, rfl⟩ := h1
      refine ⟨rfl, fun k d hk => ?_, fun k d hk => ?_⟩
      · exact hk
      · show (if k = self then _ else _) = _
        rw [if_neg (by rintro rfl; rw [hg] at hk; cases hk)]
        exact hk

end KeepsFields
end ZS.CM
