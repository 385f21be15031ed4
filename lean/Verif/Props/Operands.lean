import Verif.Props.Mediation

/-!
# C69: with which other objects the wrapped object is brought together
-/

namespace ZS.Props
open Spec
variable {A : Type}

/-- The objects that the user of a proxy gives to an operation. -/
def operands : POp → List Val
  | .setattr _ v | .getitem v | .delitem v | .contains v => [v]
  | .call args => args
  | .setitem k v => [k, v]
  | .binL _ o | .binR _ o | .inplace _ o | .compare _ o => [o]
  | .pow y m => [y, m]
  | .rpow x m => [x, m]
  | .pow3 x y => [x, y]
  | _ => []

/-- The interpreter brings `a` and `b` together in this operation: a special method of one can get the
other as its argument (for the operators also the reflected method of the right operand). -/
inductive Together : RawOp → Val → Val → Prop
  | setattr {v n x} : Together (.setattr v n x) v x
  | special {n v args x} : x ∈ args → Together (.special n v args) v x
  | method {v m args x} : x ∈ args → Together (.method v m args) v x
  | call {f args x} : x ∈ args → Together (.call f args) f x
  | binop {n l r} : Together (.binop n l r) l r
  | inplace {n l r} : Together (.inplace n l r) l r
  | pow1 {a b m} : Together (.pow a b m) a b
  | pow2 {a b m} : Together (.pow a b m) a m
  | pow3 {a b m} : Together (.pow a b m) b m
  | compare {n l r} : Together (.compare n l r) l r

/-- **C69** Whatever is carried out on behalf of the user of a proxy brings two objects together only if one of them was
given by the user (as operand or argument, or as the proxy itself), and only if the acting proxy's checker granted the name
of the operation - or the operation is a comparison, for which nobody is asked: then they are the
wrapped object and the object compared with. -/
theorem C69_together (X : Ctx A) (hW : X.impl = .py → ∀ id, NotRepointed X.W id) (p : Val) (hp : IsProxy p) (op : POp) (s : St A) :
    NewEvents s (pop X p op s).2 (Only fun ro => ∀ a b, Together ro a b →
      (∃ cmp o c, op = .compare cmp o ∧ current X.impl s p = some (a, c) ∧ b = o)
      ∨ ((∃ x ∈ p :: operands op, x = a ∨ x = b)
        ∧ ∃ q w c s1, need X.impl p op = some q ∧ current X.impl s q.actor = some (w, c)
          ∧ chkCheck X (hasattrX X) q.kind c w q.name s = (.ok (), s1))) := by
  have hmed : NewEvents s (pop X p op s).2 (Only (Allowed X p op s)) := by
    cases hX : X.impl with
    | c => exact C13_mediation_c X hX p hp op s
    | py => exact C13_mediation_py X hX (hW hX) p hp op s
  obtain ⟨es, h1, h2⟩ := hmed
  refine ⟨es, h1, fun e he => ?_⟩
  have h3 := h2 e he
  cases e with
  | probed _ => trivial
  | performed ro =>
    intro a b hab
    simp only [Only, Allowed] at h3
    cases hq : need X.impl p op with
    | none =>
      rw [hq] at h3
      obtain ⟨w, c, hcur, hf⟩ := h3
      left
      cases op <;> simp only [Free] at hf
      case compare cmp o => subst hf; cases hab; exact ⟨cmp, _, c, rfl, hcur, rfl⟩
      case hash => subst hf; cases hab with | special h => cases h
      case bool => subst hf; cases hab with | special h => cases h
      case lengthHint =>
        cases hX : X.impl <;> simp only [hX] at hf
        · rcases hf with rfl | ⟨h, rfl⟩
          · cases hab
          · cases hab with | call h => cases h
        · subst hf; cases hab with | method h => cases h
      case getattr => obtain ⟨_, _, rfl⟩ := hf; cases hab
    | some q =>
      rw [hq] at h3
      obtain ⟨w, c, hcur, h | ⟨hc, s1, hs⟩⟩ := h3
      · exfalso
        obtain ⟨_, _, h⟩ := h
        cases hX : X.impl <;> simp only [hX] at h
        · obtain ⟨v, rfl⟩ := h; cases hab
        · obtain ⟨v, _, rfl⟩ := h; cases hab
      · right
        refine ⟨?_, q, w, c, s1, rfl, hcur, hs⟩
        have plain : ro = q.carry w → ∃ x ∈ p :: operands op, x = a ∨ x = b := by
          rintro rfl
          clear hc h1 h2 he hcur hs
          cases op <;> simp only [need] at hq <;> (try split at hq) <;> (try split at hq) <;> (try split at hq) <;>
            (try (cases hq; done)) <;> cases hq <;> (try (cases hab; done)) <;> cases hab <;> simp_all [operands]
          case call h => exact .inr ⟨b, h, .inr rfl⟩
          case setitem h => rcases h with rfl | rfl <;> simp
        by_cases hin : X.impl = .py ∧ ∃ n o, op = .inplace n o
        · obtain ⟨hX, n, o, rfl⟩ := hin
          simp only [Carries, hX] at hc
          rcases hc with rfl | rfl | ⟨m, rfl⟩
          · cases hab
          · cases hab
          · cases hab with
            | call h => exact ⟨o, by simp [operands], .inr (List.mem_singleton.mp h).symm⟩
        · apply plain
          cases hX : X.impl with
          | c => simpa [Carries, hX] using hc
          | py => cases op <;> first | exact absurd ⟨hX, _, _, rfl⟩ hin | simpa [Carries, hX] using hc

/-- **C69** The comparison is carried out on the wrapped object with the other operand as it is, whatever the
checker, before anybody is asked anything. -/
theorem C69_always_compared (X : Ctx A) (p : Val) (b : CmpName) (o : Val) (s : St A) (w c : Val)
    (hcur : current X.impl s p = some (w, c)) :
    ∃ es, (pop X p (.compare b o) s).2.trace = s.trace ++ .performed (.compare (cmpNames b) w o) :: es := by
  cases p with
  | proxy id w0 c0 =>
    cases hX : X.impl with
    | c =>
      rw [pop_c hX]
      rw [hX] at hcur
      simp only [current, Option.some.injEq, Prod.mk.injEq] at hcur
      obtain ⟨rfl, rfl⟩ := hcur
      show ∃ es, (compareC X w0 c0 b o s).2.trace = _
      rcases hr : perform X (.compare b.op w0 o) s with ⟨r, s1⟩
      have ht : s1.trace = s.trace ++ [.performed (.compare (cmpNames b) w0 o)] := by
        rw [cmpNames_eq]
        have := congrArg (fun x => x.2.trace) hr
        exact this.symm
      unfold compareC
      rw [run_bind, hr]
      cases r with
      | ok v =>
        have hadd : Adds (fun _ => True) (match v with | .bool t => (pure (.bool t) : M A Val) | v => chkProxy X c0 v) := by
          split
          · exact .pure _
          · exact .chkProxy (fun _ => trivial) _ _
        obtain ⟨es, h, _⟩ := hadd s1
        exact ⟨es, h.trans (by rw [ht]; simp)⟩
      | err e => exact ⟨[], ht⟩
      | diverge => exact ⟨[], ht⟩
    | py =>
      rw [pop_py hX]
      rw [hX] at hcur
      simp only [current, Option.some.injEq, Prod.mk.injEq] at hcur
      have hw : proxyWrapped X s id w0 = w := by simp only [proxyWrapped, hX]; exact hcur.1
      refine ⟨[], ?_⟩
      show (perform X (.compare b.op (proxyWrapped X s id w0) o) s).2.trace = _
      rw [hw, ← cmpNames_eq]
      rfl
  | _ => cases X.impl <;> simp [current] at hcur

/-- A world in which object 9 belongs to untrusted code: its reflected comparison keeps what it is given. -/
def listening : World (List Val) where
  objType := fun _ => "Thing"
  metaType := fun _ => "type"
  isExc := fun _ => false
  isInst := fun _ _ => false
  truth := fun _ => true
  strSub := fun _ => false
  addr := fun _ => "0x1"
  isLoc := fun _ => false
  apply := fun r s =>
    match r with
    | .compare _ v (.obj 9) => (.ok (.bool false), { s with app := v :: s.app })
    | _ => (.err (.attributeError "x"), s)

/-- **C69** So code that may define special methods gets at the wrapped object of any proxy by comparing the proxy with an
object of its own: here of a proxy that permits nothing at all, not even the names otherwise available by default. -/
theorem C69_handed_over (impl : Impl) (s : St (List Val)) (hd : s.dicts 30 = [] ∧ s.dicts 31 = []) (ha : s.avail = [])
    (ho : s.ovW 70 = none) :
    (∀ n k, n ≠ "__iter__" → (chkCheck ⟨listening, impl, 0, 5, 3⟩ (hasattrX ⟨listening, impl, 0, 5, 3⟩) k (.checker 60 30 31) (.obj 1) n s).1
      = .err (.forbidden n (.obj 1)))
    ∧ (pop ⟨listening, impl, 0, 5, 3⟩ (.proxy 70 (.obj 1) (.checker 60 30 31)) (.compare .eq (.obj 9)) s).2.app = .obj 1 :: s.app := by
  refine ⟨fun n k hn => ?_, ?_⟩
  · have hu : ∀ i, s.dicts i = [] → Undeclared impl (s.dicts i) n := fun i hi p hp => by
      have := hp.1
      rw [hi] at this
      cases this
    by_cases hk : k = .setattr
    · subst hk
      rw [(C02_write_check_table ⟨listening, impl, 0, 5, 3⟩ _ 60 30 31 (.obj 1) n s _).mpr (.forbidden (hu 31 hd.2))]
    · rw [(C01_read_check_table ⟨listening, impl, 0, 5, 3⟩ _ k hk 60 30 31 (.obj 1) n s _).mpr
        (.forbidden (hu 30 hd.1) (fun h => by have := h.1; rw [ha] at this; cases this) hn)]
  · cases impl with
    | c => rfl
    | py =>
      show (perform _ (.compare "__eq__" (proxyWrapped _ s 70 (.obj 1)) (.obj 9)) s).2.app = _
      simp only [proxyWrapped, ho, Option.getD_none]
      rfl

/-- The hypotheses are met, and the proxy's object 1 ends up with the listener. -/
example : (pop ⟨listening, .c, 0, 5, 3⟩ (.proxy 70 (.obj 1) (.checker 60 30 31)) (.compare .eq (.obj 9))
    { initial Ex.ext ([] : List Val) with avail := [] }).2.app = [.obj 1]
    ∧ (initial Ex.ext ([] : List Val)).dicts 30 = [] ∧ (initial Ex.ext ([] : List Val)).dicts 31 = []
    ∧ (initial Ex.ext ([] : List Val)).ovW 70 = none := by decide

/-- A granted operator brings its operands together: `p + 9` with a public `__add__`. -/
example :
    let s : St Unit := { Ex.s1 none with dicts := fun _ => [("__add__", publicV)] }
    Together (.binop "__add__" (.obj 1) (.obj 9)) (.obj 1) (.obj 9)
    ∧ .performed (.binop "__add__" (.obj 1) (.obj 9)) ∈ (pop (Ex.X .c) (.proxy 70 (.obj 1) (.checker 60 30 31)) (.binL .add (.obj 9)) s).2.trace :=
  ⟨.binop, by decide⟩

end ZS.Props
