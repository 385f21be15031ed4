import Verif.Lemmas.Pres
import Verif.Spec.Ops

/-!
# Proxy operations preserve what the world preserves
-/

namespace ZS
open Spec
variable {A : Type} {P : St A → Prop} {X : Ctx A}

theorem Pres.asLen (v : Val) : Pres P (asLen v : M A Val) := by
  unfold ZS.asLen; split
  · exact .ite (.pure _) (.throw _)
  · exact .throw _

theorem Pres.asInt (v : Val) : Pres P (asInt v : M A Val) := by
  unfold ZS.asInt; split
  · exact .pure _
  · exact .throw _

theorem Pres.asStr (W : World A) (v : Val) : Pres P (asStr W v) := by
  unfold ZS.asStr; split
  · exact .pure _
  · exact .ite (.pure _) (.throw _)

theorem Pres.asName (v : Val) : Pres P (asName v : M A String) := by
  unfold ZS.asName; split
  · exact .pure _
  · exact .throw _

theorem Pres.check1C (hW : Keeps P X.W) (k : CheckKind) (w c : Val) (n : Name) (r : RawOp) : Pres P (check1C X k w c n r) :=
  .bind (.guard hW _ _ _ _) fun _ => .bind (.perform hW _) fun _ => .chkProxy hW _ _

theorem Pres.defaultReprC (hW : Keeps P X.W) (w : Val) : Pres P (defaultReprC X w) := by
  unfold ZS.defaultReprC
  refine .bind (.probe hW _) fun _ => .bind (.probe hW _) fun _ => .bind (.asName _) fun _ => .bind ?_ fun r => ?_
  · exact .tryCatch (.bind (.probe hW _) fun _ => .pure _) fun _ => .pure _
  · cases r with
    | none => exact .pure _
    | some m => exact .bind (.asName _) fun _ => .pure _

theorem Pres.strC (hW : Keeps P X.W) (w c : Val) (n : Name) : Pres P (strC X w c n) := by
  intro s hs
  have h := Pres.guard hW .check c w n s hs
  unfold ZS.strC
  rcases hg : ZS.guard X .check c w n s with ⟨r, s1⟩
  rw [hg] at h
  cases r with
  | ok _ => exact Pres.bind (Pres.perform hW _) (fun _ => Pres.asStr _ _) s1 h
  | err e => exact Pres.defaultReprC hW w s1 h
  | diverge => exact h

theorem Pres.check2C (hW : Keeps P X.W) (b : BinName) (l r : Val) : Pres P (check2C X b l r) := by
  unfold ZS.check2C
  split
  · exact .check1C hW _ _ _ _ _
  · exact .check1C hW _ _ _ _ _
  · exact .pure _

theorem Pres.powC (hW : Keeps P X.W) (x y m : Val) : Pres P (powC X x y m) := by
  unfold ZS.powC
  split
  · exact .check1C hW _ _ _ _ _
  · exact .check1C hW _ _ _ _ _
  · exact .check1C hW _ _ _ _ _
  · exact .pure _

theorem Pres.popC (hW : Keeps P X.W) (id : Nat) (w c : Val) (op : POp) : Pres P (popC X id w c op) := by
  cases op with
  | getattr n b => exact .getattroC hW (fun _ _ => .hasattrX hW _ _) _ _ _
  | setattr n v => exact .bind (.guard hW _ _ _ _) fun _ => .bind (.perform hW _) fun _ => .pure _
  | delattr n => exact .bind (.guard hW _ _ _ _) fun _ => .bind (.perform hW _) fun _ => .pure _
  | unop u => cases u <;> first | exact .throw _ | exact .check1C hW _ _ _ _ _
  | call a => exact .check1C hW _ _ _ _ _
  | getitem k => exact .check1C hW _ _ _ _ _
  | setitem k v => exact .bind (.guard hW _ _ _ _) fun _ => .bind (.perform hW _) fun _ => .pure _
  | delitem k => exact .bind (.guard hW _ _ _ _) fun _ => .bind (.perform hW _) fun _ => .pure _
  | contains v => exact .bind (.guard hW _ _ _ _) fun _ => .bind (.perform hW _) fun _ => .pure _
  | len => exact .bind (.guard hW _ _ _ _) fun _ => .bind (.perform hW _) fun _ => .asLen _
  | iter => exact .check1C hW _ _ _ _ _
  | next => exact .check1C hW _ _ _ _ _
  | binL b o => exact .check2C hW _ _ _
  | binR b o => exact .check2C hW _ _ _
  | pow y m => exact .powC hW _ _ _
  | rpow x m => exact .powC hW _ _ _
  | pow3 x y => exact .powC hW _ _ _
  | inplace b o =>
    exact .bind (.guard hW _ _ _ _) fun _ => .bind (.perform hW _) fun _ => .ite (.pure _) (.chkProxy hW _ _)
  | compare b o =>
    refine Pres.bind (Pres.perform hW _) fun v => ?_
    split
    · exact .pure _
    · exact .chkProxy hW _ _
  | hash => exact .bind (.perform hW _) fun _ => .asInt _
  | bool => exact .bind (.perform hW _) fun _ => .pure _
  | lengthHint => exact .tryCatch (.perform hW _) fun _ => .pure _
  | str => exact .strC hW _ _ _
  | repr => exact .strC hW _ _ _

theorem Pres.checkNamePy (hW : Keeps P X.W) (id : Nat) (w c : Val) (n : Name) (r : Val → RawOp) :
    Pres P (checkNamePy X id w c n r) :=
  .bind .get fun _ => .bind (.guard hW _ _ _ _) fun _ => .bind .get fun _ => .bind (.perform hW _) fun _ => .chkProxy hW _ _

theorem Pres.checkNameNonePy (hW : Keeps P X.W) (id : Nat) (w c : Val) (n : Name) (r : Val → RawOp) :
    Pres P (checkNameNonePy X id w c n r) :=
  .bind .get fun _ => .bind (.guard hW _ _ _ _) fun _ => .bind .get fun _ => .bind (.perform hW _) fun _ =>
    .bind (.chkProxy hW _ _) fun _ => .pure _

theorem Pres.defaultReprPy (hW : Keeps P X.W) (w : Val) : Pres P (defaultReprPy X w) :=
  .bind (.probe hW _) fun _ => .bind (.probe hW _) fun _ => .bind (.probe hW _) fun _ =>
    .bind (.probe hW _) fun _ => .bind (.asName _) fun _ => .bind (.asName _) fun _ => .pure _

theorem Pres.strPy (hW : Keeps P X.W) (id : Nat) (w c : Val) (n : Name) : Pres P (strPy X id w c n) :=
  .bind (.tryCatch (.checkNamePy hW _ _ _ _ _) fun _ => .bind .get fun _ => .defaultReprPy hW _) fun _ => .asStr _ _

theorem Pres.binPy (hW : Keeps P X.W) (b : BinName) (l r : Val) : Pres P (binPy X b l r) := by
  unfold ZS.binPy
  split
  · exact .checkNamePy hW _ _ _ _ _
  · exact .checkNamePy hW _ _ _ _ _
  · exact .pure _

theorem Pres.powPy (hW : Keeps P X.W) (x y m : Val) : Pres P (powPy X x y m) := by
  unfold ZS.powPy
  split
  · exact .checkNamePy hW _ _ _ _ _
  · exact .checkNamePy hW _ _ _ _ _
  · exact .pure _

theorem Pres.lengthHintPy (hW : Keeps P X.W) (w : Val) : Pres P (lengthHintPy X w) := by
  unfold ZS.lengthHintPy
  refine .bind (.tryCatch (.bind (.perform hW _) fun _ => .pure _) fun _ => .pure _) fun h => ?_
  cases h with
  | none => exact .pure _
  | some h => exact .perform hW _

theorem Pres.inplacePy (hW : Keeps P X.W) (hov : ∀ s f, P s → P { s with ovW := f }) (id : Nat) (w c : Val) (b : InName) (o : Val) :
    Pres P (inplacePy X id w c b o) := by
  refine .bind .get fun _ => .bind (.guard hW _ _ _ _) fun _ => .bind (.tryCatch (.perform hW _) fun _ => .pure _) fun m => ?_
  refine .ite ?_ ?_
  · exact .bind (.perform hW _) fun _ => .bind (.modify fun s hs => hov _ _ hs) fun _ => .pure _
  · exact .bind (.perform hW _) fun _ => .bind (.perform hW _) fun _ => .newProxy hW _ _

theorem Pres.popPy (hW : Keeps P X.W) (hX : X.impl = .py) (id : Nat) (w c : Val) (op : POp)
    (hov : Repoints X.impl op → (∀ s f, P s → P { s with ovW := f }) ∧ ∀ s f, P s → P { s with ovC := f }) :
    Pres P (popPy X id w c op) := by
  cases op with
  | getattr n b => exact .getattrPy hW (fun _ _ => .hasattrX hW _ _) _ _ _ _ _
  | setattr n v =>
    simp only [ZS.popPy, setattrPy]
    by_cases h1 : n = "_wrapped"
    · rw [if_pos h1]
      exact .bind (.modify fun s hs => (hov ⟨hX, .inr (.inl ⟨v, by rw [h1]⟩)⟩).1 _ _ hs) fun _ => .pure _
    · rw [if_neg h1]
      by_cases h2 : n = "_checker"
      · rw [if_pos h2]
        exact .bind (.modify fun s hs => (hov ⟨hX, .inr (.inr ⟨v, by rw [h2]⟩)⟩).2 _ _ hs) fun _ => .pure _
      · rw [if_neg h2]
        exact .bind .get fun _ => .bind (.guard hW _ _ _ _) fun _ => .bind (.perform hW _) fun _ => .pure _
  | delattr n =>
    exact .ite (.throw _) (.bind .get fun _ => .bind (.guard hW _ _ _ _) fun _ => .bind (.perform hW _) fun _ => .pure _)
  | unop u => exact .checkNamePy hW _ _ _ _ _
  | call a => exact .checkNamePy hW _ _ _ _ _
  | getitem k => exact .checkNamePy hW _ _ _ _ _
  | setitem k v => exact .checkNameNonePy hW _ _ _ _ _
  | delitem k => exact .checkNameNonePy hW _ _ _ _ _
  | contains v =>
    exact .bind .get fun _ => .bind (.guard hW _ _ _ _) fun _ => .bind .get fun _ => .bind (.perform hW _) fun _ =>
      .bind (.chkProxy hW _ _) fun _ => .pure _
  | len =>
    exact .bind .get fun _ => .bind (.guard hW _ _ _ _) fun _ => .bind .get fun _ => .bind (.perform hW _) fun _ => .asLen _
  | iter => exact .checkNamePy hW _ _ _ _ _
  | next => exact .checkNamePy hW _ _ _ _ _
  | binL b o => exact .binPy hW _ _ _
  | binR b o => exact .binPy hW _ _ _
  | pow y m => exact .powPy hW _ _ _
  | rpow x m => exact .powPy hW _ _ _
  | pow3 x y => exact .powPy hW _ _ _
  | inplace b o => exact .inplacePy hW (hov ⟨hX, .inl ⟨b, o, rfl⟩⟩).1 _ _ _ _ _
  | compare b o => exact .bind .get fun _ => .perform hW _
  | hash => exact .bind .get fun _ => .bind (.perform hW _) fun _ => .asInt _
  | bool => exact .bind .get fun _ => .bind (.perform hW _) fun _ => .pure _
  | lengthHint => exact .bind .get fun _ => .lengthHintPy hW _
  | str => exact .strPy hW _ _ _ _
  | repr => exact .strPy hW _ _ _ _

/-- Everything the world keeps is kept by every operation on every value, except that
pure-Python proxies may be re-pointed. -/
theorem Pres.pop (hW : Keeps P X.W) (p : Val) (op : POp)
    (hov : Repoints X.impl op → (∀ s f, P s → P { s with ovW := f }) ∧ ∀ s f, P s → P { s with ovC := f }) :
    Pres P (pop X p op) := by
  unfold ZS.pop
  split
  · cases hX : X.impl with
    | c => exact .popC hW _ _ _ _
    | py => exact .popPy hW hX _ _ _ _ hov
  · exact .throw _

end ZS
