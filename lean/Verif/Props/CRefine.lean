import Verif.Lemmas.CRefineProxy
import Verif.Examples.World
import Mathlib.Tactic.DeriveCountable
import Mathlib.Logic.Denumerable
import Mathlib.Logic.Encodable.Pi

/-!
# C63: the C code computes what the models say

`Model/CMem.lean` and `Model/CCode.lean` follow the C source statement by statement.  Here they are tied to
`Model/Checker.lean`, `Model/Select.lean` and `Model/Proxy.lean`, about which the other properties are
proved.
-/

namespace ZS.Props
open ZS.CM
variable {A : Type} {E : Env} {I : Interp A}

/-- C63: the functions in the slots of the C proxy type agree with the operations of the model of
proxies. -/
theorem C63_objects (F : Fits E I) {p i : Nat} {w c : Val} (hp : I.val p = .proxy i w c) {x : C Ptr} {op : POp}
    (hx : ObjSlot E I p x op) : Refines E I (Fields E I) x (pop I.X (I.val p) op) (ObjResult E I) := by
  refine Wp.refines (longer_objSlot hx) fun m s hf => ?_
  rw [pop_c F.impl hp]
  exact wp_objSlot ⟨F, hp⟩ hx hf

theorem C63_ints (F : Fits E I) {p i : Nat} {w c : Val} (hp : I.val p = .proxy i w c) {x : C Int} {op : POp}
    (hx : IntSlot E I p x op) : Refines E I (Fields E I) x (pop I.X (I.val p) op) (IntResult E I) := by
  refine Wp.refines (longer_intSlot hx) fun m s hf => ?_
  rw [pop_c F.impl hp]
  exact wp_intSlot ⟨F, hp⟩ hx hf

theorem plainCheck_c {X : Ctx A} (h : X.impl = .c) (H : Val → Name → M A Bool) (g : Nat) (o : Val) (n : Name) :
    plainCheck X H g o n = plainCheckC X H g o n := by
  unfold plainCheck
  rw [h]

theorem plainSetattr_c {X : Ctx A} (h : X.impl = .c) (g : Nat) (o : Val) (n : Name) : plainSetattr X g o n = plainSetattrC X g o n := by
  unfold plainSetattr
  rw [h]

/-- C63: `checker.check(object, name)` (also `check_getattr`), called from Python. -/
theorem C63_check (F : Fits E I) {c o n a g st : Nat} {t : String} (hn : I.val n = .str a t) (hc : checkerDicts (I.val c) = some (g, st)) :
    Refines E I (FieldsOf E I c) (checkerCheck E c o n) (plainCheck I.X (hasattrX I.X) g (I.val o) t) (NoneResult E I) := by
  rw [plainCheck_c F.impl]
  exact Wp.refines (by fields) fun m s hf => wp_checkerCheck F hn hc hf

/-- C63: the same through the slot used by proxies. -/
theorem C63_check_int (F : Fits E I) {c o n a g st : Nat} {t : String} (hn : I.val n = .str a t) (hc : checkerDicts (I.val c) = some (g, st)) :
    Refines E I (FieldsOf E I c) (checkInt E c o (some n)) (plainCheck I.X (hasattrX I.X) g (I.val o) t) (CheckResult E I) := by
  rw [plainCheck_c F.impl]
  exact Wp.refines (by fields) fun m s hf => wp_checkInt F hn hc hf

/-- C63: `checker.check_setattr(object, name)`. -/
theorem C63_check_setattr (F : Fits E I) {c o n a g st : Nat} {t : String} (hn : I.val n = .str a t)
    (hc : checkerDicts (I.val c) = some (g, st)) :
    Refines E I (FieldsOf E I c) (checkerCheckSetattr E c o n) (plainSetattr I.X st (I.val o) t) (NoneResult E I) := by
  rw [plainSetattr_c F.impl]
  exact Wp.refines (by fields) fun m s hf => wp_checkerCheckSetattr F hn hc hf

/-- C63: `checker.permission_id(name)` and `checker.setattr_permission_id(name)`. -/
theorem C63_permission_id (F : Fits E I) {c n g st : Nat} (hc : checkerDicts (I.val c) = some (g, st)) :
    Refines E I (FieldsOf E I c) (CM.permissionId E c n)
      (fun s => (.ok ((ZS.permissionId s (I.val c) (I.name n)).getD .none), s)) (ObjResult E I) :=
  Wp.refines (by fields) fun m s hf => wp_permissionId F hc hf

theorem C63_setattr_permission_id (F : Fits E I) {c n g st : Nat} (hc : checkerDicts (I.val c) = some (g, st)) :
    Refines E I (FieldsOf E I c) (CM.setattrPermissionId E c n)
      (fun s => (.ok ((ZS.setattrPermissionId s (I.val c) (I.name n)).getD .none), s)) (ObjResult E I) :=
  Wp.refines (by fields) fun m s hf => wp_setattrPermissionId F hc hf

/-- C63: `checker.proxy(value)` of a native checker. -/
theorem C63_proxy (F : Fits E I) {c v fuel : Nat} (hc : (I.val c).isChecker = true) (hf : fuel ≤ I.X.fuel) :
    Refines E I (fun _ _ => True) (checkerProxy E fuel v) (chkProxy I.X (I.val c) (I.val v)) (ObjResult E I) := by
  have h : chkProxy I.X (I.val c) (I.val v) = proxyC I.X (I.val v) := by
    unfold chkProxy
    rw [if_pos hc, F.impl]
  rw [h]
  exact Wp.refines (by fields) fun m s _ => wp_checkerProxy F hf

/-- C63: `selectChecker(object)`. -/
theorem C63_select (F : Fits E I) {o fuel : Nat} (hf : fuel ≤ I.X.fuel) :
    Refines E I (fun _ _ => True) (CM.selectChecker E fuel o) (ZS.selectChecker I.X (I.val o)) (ObjResult E I) := by
  have h : ZS.selectChecker I.X (I.val o) = selectC I.X (I.val o) := by
    unfold ZS.selectChecker
    rw [F.impl]
  rw [h]
  exact Wp.refines (by fields) fun m s _ => wp_selectChecker F hf

/-- C63: `getChecker(proxy)` and `removeSecurityProxy(object)`. -/
theorem C63_getChecker (F : Fits E I) {o : Nat} :
    Refines E I (fun _ _ => True) (CM.getChecker E o) (ZS.getChecker I.X (I.val o)) (ObjResult E I) := by
  refine Wp.refines (by fields) fun m s _ => .bind (.use (.ite (fun h => ?_) fun h => ?_))
  · rw [F.isProxy] at h
    cases hv : I.val o <;> rw [hv] at h <;> cases h
    refine .bind (.incref fun m1 _ _ => .pure ⟨.ok _, ?_, _, rfl, F.checkerOf _ _ _ _ hv⟩)
    show (_, _) = _
    simp [proxyChecker, F.impl]
  · rw [F.isProxy] at h
    refine .bind (.setString fun m1 h1 _ => .pure ⟨.err .typeError, ?_, rfl, by rw [h1]; exact exnOf_typeError F⟩)
    cases hv : I.val o <;> rw [hv] at h <;> first | exact absurd rfl h | rfl

theorem C63_getObject (F : Fits E I) {o : Nat} :
    Refines E I (fun _ _ => True) (CM.getObject E o) (fun s => (.ok (removeProxy I.X s (I.val o)), s)) (ObjResult E I) := by
  refine Wp.refines (by fields) fun m s _ => .bind (.use (.ite (fun h => ?_) fun h => ?_))
  · rw [F.isProxy] at h
    cases hv : I.val o <;> rw [hv] at h <;> cases h
    refine .bind (.incref fun m1 _ _ => .pure ⟨.ok _, rfl, _, rfl, ?_⟩)
    rw [F.wrapped _ _ _ _ hv]
    simp [removeProxy, proxyWrapped, F.impl]
  · rw [F.isProxy] at h
    refine .bind (.incref fun m1 _ _ => .pure ⟨.ok _, rfl, _, rfl, ?_⟩)
    cases hv : I.val o <;> rw [hv] at h <;> first | exact absurd rfl h | rfl

end ZS.Props

/-! ## A concrete run: `proxy.a`, where the permission is public -/

namespace ZS.CM.Sample
open ZS.Props

instance : Countable Char := ⟨⟨Char.toNat, fun _ _ h => Char.toNat_inj.mp h⟩⟩
instance : Countable String := Function.Injective.countable (f := String.toList) fun _ _ h => String.toList_inj.mp h
deriving instance Countable for Val
instance : Infinite Val := Infinite.of_injective Val.int (fun a b h => by cases h; rfl)

theorem numbering : Nonempty (Nat ≃ Val) := inferInstance

/-- A numbering of all values. -/
noncomputable def val : Nat ≃ Val := Classical.choice numbering
noncomputable def num (v : Val) : Nat := val.symm v

@[simp] theorem val_num (v : Val) : val (num v) = v := val.apply_symm_apply v
@[simp] theorem num_val (o : Nat) : num (val o) = o := val.symm_apply_apply o
@[simp] theorem num_inj (v w : Val) : num v = num w ↔ v = w := val.symm.injective.eq_iff

/-- The meaning of numbers.  Exceptions are identified by what is left when a call fails. -/
noncomputable def interp (X : Ctx Unit) : Interp Unit where
  X := X
  val := val
  exn := fun o => match val o with
    | .str _ n => .attributeError n
    | _ => .forbidden "a" (.obj 1)
  dict := fun o => match val o with
    | .obj k => k - 1000
    | _ => 0
  tuple := fun _ => []

noncomputable def env (X : Ctx Unit) (reply : Nat → Reply) : Env where
  reply := reply
  held := fun _ => true
  isProxy := fun o => (val o).isProxy
  exactProxy := fun o => (val o).isProxy
  isChecker := fun o => (val o).isChecker
  isStr := fun _ => true
  bytes := fun _ => []
  typeOf := fun o => num (.type (typeOf X.W (val o)))
  wrapped := fun o => match val o with
    | .proxy _ w _ => num w
    | _ => 0
  checkerOf := fun o => match val o with
    | .proxy _ _ c => num c
    | _ => 0
  assSlot := fun c => match val c with
    | .checker .. => .native
    | .combined .. => .foreign
    | _ => .absent
  subSlot := fun c => if (val c).isChecker then .native else .absent
  hasNumber := fun _ => true
  none := num .none
  notImplemented := num .notImpl
  true_ := num (.bool true)
  false_ := num (.bool false)
  threadLocal := num (.obj 902)
  checkerPublic := num publicV
  noProxy := num .noProxy
  defaultChecker := num defaultChecker
  checkers := num (.obj 900)
  available := num (.obj 901)
  proxyType := num (.obj 903)
  const := fun n => num (.str 0 n)

noncomputable def mem : Mem where
  own := fun _ => 0
  loose := fun _ => false
  err := false
  getperms := fun c => (checkerDicts (val c)).map fun d => num (.obj (1000 + d.1))
  setperms := fun c => (checkerDicts (val c)).map fun d => num (.obj (1000 + d.2))
  lost := []
  log := []

theorem fits (X : Ctx Unit) (h : X.impl = .c) (reply : Nat → Reply) : Fits (env X reply) (interp X) where
  impl := h
  inj := fun a b hab => val.injective hab
  none := val_num _
  notImplemented := val_num _
  true_ := val_num _
  false_ := val_num _
  checkerPublic := val_num _
  noProxy := val_num _
  defaultChecker := val_num _
  const := fun _ => val_num _
  typeOf := fun _ => val_num _
  isProxy := fun _ => rfl
  exactProxy := fun _ => rfl
  isChecker := fun _ => rfl
  isStr := fun _ _ _ _ => rfl
  wrapped := fun p i w c hp => by
    have hp : val p = _ := hp
    simp [interp, env, hp]
  checkerOf := fun p i w c hp => by
    have hp : val p = _ := hp
    simp [interp, env, hp]
  assSlot := fun _ => rfl
  subSlot := fun _ => rfl

theorem fields (X : Ctx Unit) (reply : Nat → Reply) (s : St Unit) : Fields (env X reply) (interp X) mem s := by
  intro c g st hc
  have hc : checkerDicts (val c) = _ := hc
  constructor <;> simp [mem, hc, FieldIs, interp, env] <;> omega

/-- The answers in turn. -/
def answers (l : List Reply) (n : Nat) : Reply := l.getD n {}

noncomputable def p : Nat := num (.proxy 70 (.obj 1) Ex.c1)

noncomputable def replies : List Reply :=
  [{ obj := num publicV }, { obj := num (.obj 7) }, { null := true, obj := num (.str 0 "__Security_checker__") },
   { null := true }, { num := 0 }, { obj := num (.proxy 100 (.obj 7) defaultChecker) }, {}, {}]

/-- Result and calls. -/
def seen {α : Type} : Out α → Option (α × List Ask)
  | .ok a m => some (a, m.asked.reverse)
  | _ => none

noncomputable def calls : List Ask :=
  [⟨.dictGet, [num (.obj 1030), num (.str 0 "a")], .nothing, { obj := num publicV }⟩,
      ⟨.user .getAttr, [num (.obj 1), num (.str 0 "a")], .nothing, { obj := num (.obj 7) }⟩,
      ⟨.getAttr, [num (.obj 7), num (.str 0 "__Security_checker__")], .nothing, { null := true, obj := num (.str 0 "__Security_checker__") }⟩,
      ⟨.dictGet, [num (.obj 900), num (.type "Thing")], .nothing, { null := true }⟩,
      ⟨.isInstance, [num (.obj 7), num (.str 0 "Exception")], .nothing, {}⟩,
      ⟨.call, [num (.obj 903), num (.obj 7), num defaultChecker], .nothing, { obj := num (.proxy 100 (.obj 7) defaultChecker) }⟩,
      ⟨.destroy, [num defaultChecker], .nothing, {}⟩,
      ⟨.destroy, [num (.obj 7)], .nothing, {}⟩]

theorem run : seen (proxyGetattro (env (Ex.X .c) (answers replies)) 5 p (num (.str 0 "a")) mem) =
    some (some (num (.proxy 100 (.obj 7) defaultChecker)), calls) := by
  simp [proxyGetattro, check, bind, pure, env, p, Ex.c1, checkInt, deref, checkNamed, loadGetperms, mem, checkerDicts, lookup, dictGet, useAll, use, alive,
     consult, answers, replies, api, callObj, gain, proxyResult, protect, Val.isChecker, checkerProxy, Val.isProxy, setErr, clearErr, selectChecker, defaultChecker, isUnprotectedException, callInt, incref, selectLoop, makeProxy, decref, seen, calls, typeOf, Ex.X, Ex.W]

noncomputable def sB : St Unit := (perform (Ex.X .c) (.getattr (.obj 1) "a") (Ex.s1 none)).2
noncomputable def sC : St Unit := (probe (Ex.X .c) (.getattr (.obj 7) "__Security_checker__") sB).2
noncomputable def sD : St Unit := (newProxy (.obj 7) defaultChecker sC).2

theorem last : sD = (pop (Ex.X .c) (.proxy 70 (.obj 1) Ex.c1) (.getattr "a" false) (Ex.s1 none)).2 := rfl

/-- The calls are explained. -/
theorem explained : Explains (env (Ex.X .c) (answers replies)) (interp (Ex.X .c)) (Ex.s1 none) calls sD := by
  refine .cons (s1 := Ex.s1 none) ?_ <| .cons (s1 := sB) ?_ <| .cons (s1 := sC) ?_ <| .cons (s1 := sC) ?_ <|
    .cons (s1 := sC) ?_ <| .cons (s1 := sD) ?_ <| .cons (s1 := sD) ?_ <| .cons (s1 := sD) ?_ <| .nil _
  · simp [Explained, env, interp, LookupAnswer, Interp.name]
    rfl
  · simp [Explained, rawOf, UserFn.isInt, Runs, ObjAnswer, interp, Interp.name]
    exact ⟨rfl, rfl⟩
  · simp [Explained, Runs, ObjAnswer, interp, Interp.name, env, getSC]
    exact ⟨rfl, rfl⟩
  · simp [Explained, env, interp, LookupAnswer]
    rw [show sC.reg.get? (Key.ty "Thing") = none by decide +kernel]
    trivial
  · simp [Explained, env, TestAnswer, interp]
    decide
  · simp [Explained, env, interp, ObjAnswer, Runs]
    exact ⟨rfl, rfl⟩
  · rfl
  · rfl

/-- `C63_objects` on this run: the model gives the same proxy. -/
example : (pop (Ex.X .c) (.proxy 70 (.obj 1) Ex.c1) (.getattr "a" false) (Ex.s1 none)).1 =
    .ok (.proxy 100 (.obj 7) defaultChecker) := by
  have F := fits (Ex.X .c) rfl (answers replies)
  have hv : (interp (Ex.X .c)).val p = .proxy 70 (.obj 1) Ex.c1 := val_num _
  have h := C63_objects F hv (.getattr (fuel := 5) (n := num (.str 0 "a")) false (Nat.le_refl 5) (val_num _))
  have hr := run
  cases ho : proxyGetattro (env (Ex.X .c) (answers replies)) 5 p (num (.str 0 "a")) mem with
  | fault f m => rw [ho] at hr; cases hr
  | diverge => rw [ho] at hr; cases hr
  | ok a m' =>
    rw [ho] at hr
    simp only [seen, Option.some.injEq, Prod.mk.injEq] at hr
    obtain ⟨rfl, hr⟩ := hr
    obtain ⟨l, hl, h1⟩ := h mem (Ex.s1 none) _ m' (fields _ _ _) ho
    have hl' : l.reverse = calls := by
      rw [← hr, hl]
      simp [mem]
    obtain ⟨_, h2⟩ := h1 sD (hl' ▸ explained)
    rw [hv] at h2
    cases hp : (pop (Ex.X .c) (.proxy 70 (.obj 1) Ex.c1) (.getattr "a" false) (Ex.s1 none)).1 with
    | ok v =>
      change ObjResult _ _ _ _ (pop (Ex.X .c) (.proxy 70 (.obj 1) Ex.c1) (.getattr "a" false) (Ex.s1 none)).1 at h2
      rw [hp] at h2
      obtain ⟨o, h3, h4⟩ := h2
      cases h3
      rw [← h4]
      exact congrArg _ (val_num _)
    | err e =>
      change ObjResult _ _ _ _ (pop (Ex.X .c) (.proxy 70 (.obj 1) Ex.c1) (.getattr "a" false) (Ex.s1 none)).1 at h2
      rw [hp] at h2
      cases h2.1
    | diverge =>
      change ObjResult _ _ _ _ (pop (Ex.X .c) (.proxy 70 (.obj 1) Ex.c1) (.getattr "a" false) (Ex.s1 none)).1 at h2
      rw [hp] at h2
      cases h2

/-! ## A write that is refused -/

noncomputable def refusal : List Reply := [{ null := true, obj := num .none }]

noncomputable def refusalCalls : List Ask :=
  [⟨.callMethod, [num Ex.c1, num (.str 0 "check_setattr"), num (.obj 1), num (.str 0 "a")], .nothing, { null := true, obj := num .none }⟩]

example : seen (proxySetattro (env (Ex.X .c) (answers refusal)) p (num (.str 0 "a")) (some (num (.int 1))) mem) =
    some (-1, refusalCalls) := by
  simp [proxySetattro, check, bind, pure, env, p, useAll, use, alive, consult, answers, refusal, callObj, setErr, seen, refusalCalls, mem]

example : Explains (env (Ex.X .c) (answers refusal)) (interp (Ex.X .c)) (Ex.s1 none) refusalCalls (Ex.s1 none) := by
  refine .cons (s1 := Ex.s1 none) ?_ (.nil _)
  simp [Explained, interp, Interp.name, kindOf, Runs, DoneAnswer]
  exact ⟨rfl, rfl⟩

example : Refines (env (Ex.X .c) (answers refusal)) (interp (Ex.X .c)) (Fields (env (Ex.X .c) (answers refusal)) (interp (Ex.X .c)))
    (proxySetattro (env (Ex.X .c) (answers refusal)) p (num (.str 0 "a")) (some (num (.int 1))))
    (pop (Ex.X .c) (.proxy 70 (.obj 1) Ex.c1) (.setattr "a" (.int 1))) (IntResult (env (Ex.X .c) (answers refusal)) (interp (Ex.X .c))) := by
  have hv : (interp (Ex.X .c)).val p = .proxy 70 (.obj 1) Ex.c1 := val_num _
  have h := C63_ints (fits (Ex.X .c) rfl (answers refusal)) hv (.setattr (n := num (.str 0 "a")) (v := num (.int 1)) (val_num _))
  rw [hv, show (interp (Ex.X .c)).val (num (.int 1)) = .int 1 from val_num _] at h
  exact h

/-! ## The other theorems -/

noncomputable abbrev E0 : Env := env (Ex.X .c) (answers [])
noncomputable abbrev I0 : Interp Unit := interp (Ex.X .c)

theorem fits0 : Fits E0 I0 := fits _ rfl _

theorem dicts0 : checkerDicts (I0.val (num Ex.c1)) = some (30, 31) := by
  show checkerDicts (val (num Ex.c1)) = _
  rw [val_num]
  rfl

example : Refines E0 I0 (FieldsOf E0 I0 (num Ex.c1)) (checkerCheck E0 (num Ex.c1) (num (.obj 1)) (num (.str 0 "b")))
    (plainCheck (Ex.X .c) (hasattrX (Ex.X .c)) 30 (I0.val (num (.obj 1))) "b") (NoneResult E0 I0) :=
  C63_check fits0 (val_num _) dicts0

example : Refines E0 I0 (FieldsOf E0 I0 (num Ex.c1)) (checkInt E0 (num Ex.c1) (num (.obj 1)) (some (num (.str 0 "b"))))
    (plainCheck (Ex.X .c) (hasattrX (Ex.X .c)) 30 (I0.val (num (.obj 1))) "b") (CheckResult E0 I0) :=
  C63_check_int fits0 (val_num _) dicts0

example : Refines E0 I0 (FieldsOf E0 I0 (num Ex.c1)) (checkerCheckSetattr E0 (num Ex.c1) (num (.obj 1)) (num (.str 0 "w")))
    (plainSetattr (Ex.X .c) 31 (I0.val (num (.obj 1))) "w") (NoneResult E0 I0) :=
  C63_check_setattr fits0 (val_num _) dicts0

example : Refines E0 I0 (FieldsOf E0 I0 (num Ex.c1)) (CM.permissionId E0 (num Ex.c1) (num (.str 0 "b")))
    (fun s => (.ok ((ZS.permissionId s (I0.val (num Ex.c1)) (I0.name (num (.str 0 "b")))).getD .none), s)) (ObjResult E0 I0) :=
  C63_permission_id fits0 dicts0

example : Refines E0 I0 (FieldsOf E0 I0 (num Ex.c1)) (CM.setattrPermissionId E0 (num Ex.c1) (num (.str 0 "w")))
    (fun s => (.ok ((ZS.setattrPermissionId s (I0.val (num Ex.c1)) (I0.name (num (.str 0 "w")))).getD .none), s)) (ObjResult E0 I0) :=
  C63_setattr_permission_id fits0 dicts0

example : Refines E0 I0 (fun _ _ => True) (checkerProxy E0 5 (num (.obj 7))) (chkProxy (Ex.X .c) (I0.val (num Ex.c1)) (I0.val (num (.obj 7))))
    (ObjResult E0 I0) :=
  C63_proxy fits0 (by show (val (num Ex.c1)).isChecker = true; rw [val_num]; rfl) (Nat.le_refl 5)

example : Refines E0 I0 (fun _ _ => True) (CM.selectChecker E0 5 (num (.obj 7))) (ZS.selectChecker (Ex.X .c) (I0.val (num (.obj 7))))
    (ObjResult E0 I0) := C63_select fits0 (Nat.le_refl 5)

example : Refines E0 I0 (fun _ _ => True) (CM.getChecker E0 p) (ZS.getChecker (Ex.X .c) (I0.val p)) (ObjResult E0 I0) := C63_getChecker fits0

example : Refines E0 I0 (fun _ _ => True) (CM.getObject E0 p) (fun s => (.ok (removeProxy (Ex.X .c) s (I0.val p)), s)) (ObjResult E0 I0) :=
  C63_getObject fits0

/-- What `permission_id` says of the checker. -/
example : (ZS.permissionId (Ex.s1 none) Ex.c1 "b").getD .none = Ex.view := rfl

end ZS.CM.Sample
