import Verif.Source.Management
import Verif.Source.Simplepolicies
import Verif.Lemmas.PyRun

/-!
# C77: the source of management.py and simplepolicies.py does what the model says
-/

namespace ZS.Props
open ZS ZS.PyC ZS.Src
variable {A : Type}
set_option maxHeartbeats 1000000

/-- `getSecurityPolicy`. -/
theorem C77_getSecurityPolicy (X : Ctx A) :
    run (lang X own) Management.getSecurityPolicy [] = (do
      let p ← getSecurityPolicy
      pure (.policy p)) := by
  apply ext_fork
  intro s
  pysteps [Management.getSecurityPolicy, getSecurityPolicy]

/-- `setSecurityPolicy` returns the policy that was in force. -/
theorem C77_setSecurityPolicy (X : Ctx A) (p : Policy) :
    run (lang X own) Management.setSecurityPolicy [.policy p] = (do
      let old ← setSecurityPolicy p
      pure (.policy old)) := by
  apply ext_fork
  intro s
  pysteps [Management.setSecurityPolicy, setSecurityPolicy]

/-- `queryInteraction`. -/
theorem C77_queryInteraction (X : Ctx A) :
    run (lang X own) Management.queryInteraction [] = val (queryInteraction X) := by
  apply ext_fork
  intro s
  pysteps [Management.queryInteraction, queryInteraction]

/-- `getInteraction`. -/
theorem C77_getInteraction (X : Ctx A) :
    run (lang X own) Management.getInteraction [] = val (getInteraction X) := by
  apply ext_fork
  intro s
  cases h : (s.threads X.tid).interaction <;> pysteps [Management.getInteraction, getInteraction, h, Exn.isAttr]

/-- `newInteraction(*participations)`. -/
theorem C77_newInteraction (X : Ctx A) (ps : List Nat) :
    run (lang X own) Management.newInteraction (ps.map .part) = unit (newInteraction X ps) := by
  have hp : partsOf (ps.map .part) = some ps := by
    induction ps with
    | nil => rfl
    | cons p ps ih => rw [List.map_cons, partsOf, ih]; rfl
  apply ext_fork
  intro s
  unfold newInteraction queryInteraction getSecurityPolicy
  by_cases h : (s.threads X.tid).interaction.getD .none = .none
  · pysteps [Management.newInteraction, queryInteraction, getSecurityPolicy, h, hp, List.append_nil, callPolicyWith]
    refine fork_ext (fun c s' hc => ?_) (fun e s' he => ?_)
    · pysteps [setSlots]
    · pysteps
  · pysteps [Management.newInteraction, queryInteraction, h]

theorem no_slots {s : St A} {t : Nat} (h : (s.threads t).interaction = none) (hq : (s.threads t).previous = none) :
    (fun u => if u = t then ({ interaction := none, previous := none } : Slots) else s.threads u) = s.threads := by
  funext u
  split
  · rename_i e
    subst e
    cases hs : s.threads u
    simp_all
  · rfl

/-- `endInteraction`. -/
theorem C77_endInteraction (X : Ctx A) :
    run (lang X own) Management.endInteraction [] = unit (endInteraction X) := by
  apply ext_fork
  intro s
  unfold endInteraction
  cases h : (s.threads X.tid).interaction with
  | some v => pysteps [Management.endInteraction, h, setSlots, Option.isSome_some]
  | none =>
    cases hq : (s.threads X.tid).previous <;>
      pysteps [Management.endInteraction, h, hq, setSlots, Option.isSome_some, Option.isSome_none, Exn.isAttr]
    rw [no_slots h hq]

/-- `restoreInteraction`. -/
theorem C77_restoreInteraction (X : Ctx A) :
    run (lang X own) Management.restoreInteraction [] = unit (restoreInteraction X) := by
  apply ext_fork
  intro s
  unfold restoreInteraction
  cases hq : (s.threads X.tid).previous with
  | some v => pysteps [Management.restoreInteraction, hq, setSlots, Option.isSome_some]
  | none =>
    cases h : (s.threads X.tid).interaction <;>
      pysteps [Management.restoreInteraction, h, hq, setSlots, Option.isSome_some, Option.isSome_none, Exn.isAttr]
    rw [no_slots h hq]

/-- `checkPermission(permission, object, interaction)`. -/
theorem C77_checkPermission (X : Ctx A) (p o i : Val) :
    run (lang X own) Management.checkPermission [.v p, .v o, .v i] = val (checkPermission X p o i) := by
  apply ext_fork
  intro s
  unfold checkPermission
  by_cases h1 : p = publicV
  · subst h1; pysteps [Management.checkPermission, true_or]
  · by_cases h2 : p = .none
    · subst h2; pysteps [Management.checkPermission, or_true]
      split <;> rfl
    · by_cases h3 : i = .none
      · subst h3
        cases h : (s.threads X.tid).interaction with
        | none => pysteps [Management.checkPermission, h1, h2, h, or_self, Exn.isAttr]
        | some ix =>
          pysteps [Management.checkPermission, h1, h2, h, or_self]
          refine fork_ext (fun c s' hc => ?_) (fun e s' he => ?_) <;> pysteps
      · pysteps [Management.checkPermission, h1, h2, h3, or_self]
        refine fork_ext (fun c s' hc => ?_) (fun e s' he => ?_) <;> pysteps

/-- `management._clear`. -/
theorem C77_clear (X : Ctx A) : run (lang X own) Management._clear [] = unit clearPolicy := by
  apply ext_fork
  intro s
  pysteps [Management._clear, clearPolicy]

/-! ## simplepolicies.py -/

/-- `ParanoidSecurityPolicy.add`. -/
theorem C77_add (X : Ctx A) (i p : Nat) :
    run (lang X own) Simplepolicies.ParanoidSecurityPolicy.add [.v (.ix i), .part p] = unit (ixAdd i p) := by
  apply ext_fork
  intro s
  unfold ixAdd
  by_cases h : (s.parts p).interaction = .none <;>
    pysteps [Simplepolicies.ParanoidSecurityPolicy.add, h]

/-- `ParanoidSecurityPolicy.remove`. -/
theorem C77_remove (X : Ctx A) (i p : Nat) :
    run (lang X own) Simplepolicies.ParanoidSecurityPolicy.remove [.v (.ix i), .part p] = unit (ixRemove i p) := by
  apply ext_fork
  intro s
  unfold ixRemove
  by_cases h : (s.parts p).interaction = .ix i <;>
    by_cases h' : p ∈ (s.ixs i).participations <;>
    pysteps [Simplepolicies.ParanoidSecurityPolicy.remove, h, h']

/-- `ParanoidSecurityPolicy.__init__`. -/
theorem C77_init (X : Ctx A) (i : Nat) (ps : List Nat) :
    run (lang X own) Simplepolicies.ParanoidSecurityPolicy.__init__ (.v (.ix i) :: ps.map .part) = unit (do
      M.modify fun s => { s with ixs := fun j => if j = i then { s.ixs i with participations := [] } else s.ixs j }
      ixAddAll i ps) := by
  apply ext_fork
  intro s
  pysteps [Simplepolicies.ParanoidSecurityPolicy.__init__]
  generalize (⟨s.reg, s.basic, s.defaults, s.dicts, s.nextId, s.avail, s.threads, s.policy, _, s.parts, s.ovW, s.ovC, s.parents,
    s.app, s.trace⟩ : St A) = s1
  have key : ∀ (ps : List Nat) (env : Env) (s : St A), env.get? "self" = some (.v (.ix i)) →
      fork (forLoop (assign (lang X own) (.loc "participation")) (fun env => execs (lang X own)
        [.expr (.call (.attr (.loc "self") "add") [.loc "participation"])] none env) (ps.map .part) env)
        (fun f => fork (afterStmt (lang X own) [] none f) (leave okK errK) errK) errK s =
      fork (ixAddAll i ps) (fun _ => okK (PV.v .none)) errK s := by
    intro ps
    induction ps with
    | nil =>
      intro env s h
      rw [List.map_nil, fl_nil]
      pysteps [ixAddAll]
    | cons p ps ih =>
      intro env s h
      rw [List.map_cons, fl_cons, ixAddAll]
      pysteps [h]
      refine fork_ext (fun c s' hc => ?_) (fun e s' he => ?_)
      · pysteps
        exact ih _ s' (by pysteps [h])
      · pysteps
  exact key ps _ s1 rfl

/-- Calling a built-in policy class: a new interaction, and `__init__`. -/
theorem C77_newIx (X : Ctx A) (b : Bool) (ps : List Nat) :
    val (newIx b ps : M A Val) = (do
      let s ← M.get
      M.modify fun s' => { s' with nextId := s.nextId + 1, ixs := fun j => if j = s.nextId then ⟨b, []⟩ else s.ixs j }
      let _ ← run (lang X own) Simplepolicies.ParanoidSecurityPolicy.__init__ (.v (.ix s.nextId) :: ps.map .part)
      pure (.v (.ix s.nextId))) := by
  apply ext_fork
  intro s
  unfold newIx
  simp only [C77_init]
  pysteps
  congr 2
  funext j
  split <;> simp_all

theorem collect_users (X : Ctx A) (s : St A) (env : Env) (ps : List Nat) :
    collect (pick (lang X own) (.attr (.loc "p") "principal") "p"
      (.cmp .isNot (.attr (.loc "p") "principal") (.glo "system_user")) env) (ps.map .part) s =
    (.ok (((ps.map fun p => (s.parts p).principal).filter (fun q => decide (q ≠ .system))).map .user), s) := by
  induction ps with
  | nil => rfl
  | cons p ps ih =>
    refine fork_run ?_
    rw [List.map_cons, collect]
    by_cases h : (s.parts p).principal = .system
    · pysteps [pick, h]
      unfold fork
      rw [ih]
      simp [h]
      rfl
    · pysteps [pick, h]
      unfold fork
      rw [ih]
      simp [h]
      rfl

/-- `ParanoidSecurityPolicy.checkPermission`. -/
theorem C77_paranoid (X : Ctx A) (i : Nat) (p o : Val) (s : St A) :
    run (lang X own) Simplepolicies.ParanoidSecurityPolicy.checkPermission [.v (.ix i), .v p, .v o] s =
      (.ok (.v (.bool (paranoidCheck s i p))), s) := by
  refine fork_run ?_
  unfold paranoidCheck
  by_cases h : p = publicV
  · subst h
    pysteps [Simplepolicies.ParanoidSecurityPolicy.checkPermission]
    rfl
  · pysteps [Simplepolicies.ParanoidSecurityPolicy.checkPermission, h]
    unfold fork
    rw [collect_users]
    pysteps
    cases ((s.ixs i).participations.map fun p => (s.parts p).principal).filter (fun q => decide (q ≠ .system)) <;> rfl

/-- `PermissiveSecurityPolicy.checkPermission`. -/
theorem C77_permissive (X : Ctx A) (i : Nat) (p o : Val) (s : St A) :
    run (lang X own) Simplepolicies.PermissiveSecurityPolicy.checkPermission [.v (.ix i), .v p, .v o] s =
      (.ok (.v (.bool true)), s) := by
  refine fork_run ?_
  pysteps [Simplepolicies.PermissiveSecurityPolicy.checkPermission]
  rfl

end ZS.Props
