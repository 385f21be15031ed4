import Verif.Spec.Simulation
import Verif.Props.Sandbox
import Verif.Lemmas.Dict

/-!
# C61, C62: The simulation of the sandbox example
-/

namespace ZS.Props
open Spec Sm

section
variable {α β : Type}

theorem sm_bind (x : Sm α) (f : α → Sm β) (s : Sim) :
    (x >>= f) s = match x s with | (.ok a, s') => f a s' | (.error e, s') => (.error e, s') := rfl

theorem sm_pure (a : α) (s : Sim) : (pure a : Sm α) s = (.ok a, s) := rfl
theorem sm_read (f : Sim → α) (s : Sim) : read f s = (.ok (f s), s) := rfl
theorem sm_change (f : Sim → Sim) (s : Sim) : change f s = (.ok (), f s) := rfl
theorem sm_raise (e : SimErr) (s : Sim) : (raise e : Sm α) s = (.error e, s) := rfl
theorem sm_ite (c : Prop) [Decidable c] (x y : Sm α) (s : Sim) : (if c then x else y) s = if c then x s else y s := by
  split <;> rfl

end

/-- What the checker of a sandbox says. -/
def LetsIn (s : Sim) (r : Ref) (n : Name) : Prop :=
  r.proxied = true → (decideSim sandboxSecurity (s.boxes r.box).id n s).1 = .ok ()

theorem decideSim_state (m : List (Val × List Name)) (home : String) (n : Name) (s : Sim) : (decideSim m home n s).2 = s := by
  unfold decideSim
  repeat' split
  all_goals rfl

theorem through_cases {α : Type} (r : Ref) (n : Name) (body : Sm α) (s : Sim) :
    (LetsIn s r n ∧ through r n body s = body s) ∨ (¬ LetsIn s r n ∧ ∃ e, through r n body s = (.error e, s)) := by
  unfold through LetsIn
  cases r.proxied with
  | false => exact .inl ⟨(fun h => nomatch h), rfl⟩
  | true =>
    have hs := decideSim_state sandboxSecurity (s.boxes r.box).id n s
    rcases h : decideSim sandboxSecurity (s.boxes r.box).id n s with ⟨x, s'⟩
    rw [h] at hs
    simp only at hs
    subst hs
    cases x with
    | ok u => exact .inl ⟨fun _ => rfl, by simp [sm_bind, sm_read, h]⟩
    | error e => exact .inr ⟨(fun h => nomatch h rfl), e, by simp [sm_bind, sm_read, h]⟩

theorem addAgent_cases (b a : Nat) (s : Sim) :
    ((s.boxes b).agents.mem (s.agents a).id = true ∧ addAgent b a s = (.error .sandbox, s))
    ∨ ((s.boxes b).agents.mem (s.agents a).id = false ∧ addAgent b a s = (.ok (), { s with
        boxes := fun k => if k = b then { s.boxes b with agents := (s.boxes b).agents.set (s.agents a).id a } else s.boxes k
        agents := fun k => if k = a then { s.agents a with home := some ⟨b, s.secured⟩ } else s.agents k })) := by
  unfold addAgent
  cases h : (s.boxes b).agents.mem (s.agents a).id with
  | true => exact .inl ⟨rfl, by simp [sm_bind, sm_read, h, sm_raise]⟩
  | false => exact .inr ⟨rfl, by simp [sm_bind, sm_read, h, sm_change]⟩

/-- The conditions for a successful `send`. -/
def CanSend (s : Sim) (c a : Nat) (r d : Ref) : Prop :=
  (s.agents c).home = some r ∧ LetsIn s r "transportAgent" ∧ (s.boxes r.box).agents.mem (s.agents a).id = true
    ∧ d.box ≠ r.box ∧ LetsIn s d "addAgent" ∧ (s.boxes d.box).agents.mem (s.agents a).id = false

theorem send_cases (c a : Nat) (d : Ref) (s : Sim) :
    (∃ r, CanSend s c a r d ∧ sendFrom c a d s = (.ok (), sent s r.box a d.box))
    ∨ ((∀ r, ¬ CanSend s c a r d) ∧ ∃ e, sendFrom c a d s = (.error e, s)) := by
  unfold sendFrom
  simp only [sm_bind, sm_read]
  cases hh : (s.agents c).home with
  | none => exact .inr ⟨(fun r h => by rw [h.1] at hh; cases hh), _, rfl⟩
  | some r =>
    simp only
    rcases through_cases r "transportAgent" (transportAgent r.box a d) s with ⟨g, h⟩ | ⟨g, e, h⟩
    · rw [h]
      unfold transportAgent
      simp only [sm_bind, sm_read, id]
      by_cases hm : (s.boxes r.box).agents.mem (s.agents a).id = true ∧ d ≠ ⟨r.box, false⟩
      · rw [if_pos hm]
        simp only [sm_bind]
        rcases through_cases d "addAgent" (addAgent d.box a) s with ⟨g2, h2⟩ | ⟨g2, e, h2⟩
        · rw [h2]
          rcases addAgent_cases d.box a s with ⟨h3, h4⟩ | ⟨h3, h4⟩
          · rw [h4]
            refine .inr ⟨fun r' hr => ?_, _, rfl⟩
            exact absurd (h3.symm.trans hr.2.2.2.2.2) (by decide)
          · rw [h4]
            have hne : d.box ≠ r.box := fun e => by rw [e, hm.1] at h3; cases h3
            refine .inl ⟨r, ⟨hh, g, hm.1, hne, g2, h3⟩, ?_⟩
            simp only [sm_change, sent]
            congr 2
            funext k
            by_cases hk : k = r.box
            · subst hk; simp [Ne.symm hne]
            · simp [hk]
        · rw [h2]
          refine .inr ⟨fun r' hr => g2 hr.2.2.2.2.1, _, rfl⟩
      · rw [if_neg hm]
        refine .inr ⟨fun r' hr => ?_, _, rfl⟩
        obtain ⟨h1, _, h3, h4, _⟩ := hr
        rw [hh] at h1
        cases h1
        exact hm ⟨h3, fun e => h4 (by rw [e])⟩
    · rw [h]
      refine .inr ⟨fun r' hr => ?_, _, rfl⟩
      obtain ⟨h1, h2, _⟩ := hr
      rw [hh] at h1
      cases h1
      exact g h2

/-! ## The shipped tables -/

theorem lists_iff (home token perm : String) : Lists simulationDb home token perm ↔
    (home = "origin" ∧ token = "any" ∧ perm = "All")
    ∨ (home = "jail" ∧ token = "any" ∧ perm ∈ ["Access Time Services", "Add Agent"])
    ∨ (home = "jail" ∧ token = "norse legend" ∧ perm ∈ ["Transport Agent", "Access Services", "Access Agent Service",
        "Access Home Service", "Transport Agent", "Access Agents"])
    ∨ (home = "valhalla" ∧ token = "any" ∧ perm ∈ ["Access Services", "Access Time Services", "Access Agent Service",
        "Access Home Service", "Transport Agent", "Access Agents"])
    ∨ (home = "valhalla" ∧ token = "norse legend" ∧ perm = "Add Agent") := by
  unfold Lists
  constructor
  · rintro ⟨t, l, h1, h2, h3⟩
    unfold simulationDb at h1
    split at h1
    · cases h1
      dsimp only at h2
      split at h2
      · cases h2; simpa using h3
      · cases h2
    · cases h1
      dsimp only at h2
      split at h2
      · cases h2; exact .inr (.inr (.inl ⟨rfl, rfl, h3⟩))
      · cases h2; exact .inr (.inl ⟨rfl, rfl, h3⟩)
      · cases h2
    · cases h1
      dsimp only at h2
      split at h2
      · cases h2; exact .inr (.inr (.inr (.inr ⟨rfl, rfl, by simpa using h3⟩)))
      · cases h2; exact .inr (.inr (.inr (.inl ⟨rfl, rfl, h3⟩)))
      · cases h2
    · cases h1
  · rintro (⟨rfl, rfl, rfl⟩ | ⟨rfl, rfl, h⟩ | ⟨rfl, rfl, h⟩ | ⟨rfl, rfl, h⟩ | ⟨rfl, rfl, rfl⟩)
    · exact ⟨_, _, rfl, rfl, by decide⟩
    · exact ⟨_, _, rfl, rfl, h⟩
    · exact ⟨_, _, rfl, rfl, h⟩
    · exact ⟨_, _, rfl, rfl, h⟩
    · exact ⟨_, _, rfl, rfl, by decide⟩

theorem policy_total (home : String) (tokens : List String) (perm : String) :
    ∃ b, sandboxCheck "All" simulationDb home tokens perm = .ok b := by
  unfold sandboxCheck
  cases h : simulationDb home with
  | missing => exact ⟨_, rfl⟩
  | other => unfold simulationDb at h; split at h <;> cases h
  | table t => simp only; split; · exact ⟨_, rfl⟩
               split <;> exact ⟨_, rfl⟩

/-- The decision about an attribute that needs a permission of the simulation. -/
theorem decide_perm (m : List (Val × List Name)) (home : String) (n : Name) (s : Sim) (c : Nat) (hc : s.acting = some c)
    (perm : String) (hp : (permissionMap m []).get? n = some (.str 0 perm)) :
    (decideSim m home n s).1 = .ok () ↔
      Lists simulationDb home "any" perm ∨ Lists simulationDb home "any" "All" ∨ Lists simulationDb home (s.agents c).token perm := by
  unfold decideSim
  rw [hp, hc]
  simp only [show Val.str 0 perm ≠ publicV from fun h => (by cases h), if_false]
  obtain ⟨b, hb⟩ := policy_total home [(s.agents c).token] perm
  have := C46_policy "All" simulationDb home [(s.agents c).token] perm
  simp only [ne_eq, List.cons_ne_nil, not_false_eq_true, List.mem_cons, List.not_mem_nil, or_false, forall_eq, true_and] at this
  rw [← this, hb]
  cases b <;> simp

theorem sandbox_names (n : Name) : (permissionMap sandboxSecurity []).get? n =
    if n ∈ ["getService", "addService", "getServiceIds"] then some (.str 0 "Access Services")
    else if n ∈ ["getAgentsIds", "getAgents"] then some (.str 0 "Access Agents")
    else if n = "addAgent" then some (.str 0 "Add Agent")
    else if n = "transportAgent" then some (.str 0 "Transport Agent")
    else if n ∈ ["getId", "getHome"] then some publicV else none := by
  by_cases h : n ∈ ["getService", "addService", "getServiceIds", "getAgentsIds", "getAgents", "addAgent", "transportAgent", "getId", "getHome"]
  · simp only [List.mem_cons, List.not_mem_nil, or_false] at h
    rcases h with rfl | rfl | rfl | rfl | rfl | rfl | rfl | rfl | rfl <;> rfl
  · have e : (permissionMap sandboxSecurity []).get? n = none := by
      cases hg : (permissionMap sandboxSecurity []).get? n with
      | none => rfl
      | some p =>
        exfalso
        have hm := PyDict.mem_of_get? hg
        have : n ∈ (permissionMap sandboxSecurity []).map Prod.fst := List.mem_map.mpr ⟨_, hm, rfl⟩
        exact h this
    rw [e]
    simp only [List.mem_cons, List.not_mem_nil, or_false, not_or] at h
    simp [h]

/-- **C61** The methods of a sandbox an agent may use, by its token and the place. -/
theorem C61_methods (home : String) (n : Name) (s : Sim) (c : Nat) (hc : s.acting = some c) :
    (decideSim sandboxSecurity home n s).1 = .ok () ↔ MayCall (s.agents c).token home n := by
  have hn := sandbox_names n
  by_cases h : n ∈ ["getService", "addService", "getServiceIds", "getAgentsIds", "getAgents", "addAgent", "transportAgent", "getId", "getHome"]
  · simp only [List.mem_cons, List.not_mem_nil, or_false] at h
    rcases h with rfl | rfl | rfl | rfl | rfl | rfl | rfl | rfl | rfl
    all_goals first
      | (rw [decide_perm _ home _ s c hc _ rfl]
         simp only [lists_iff, MayCall]
         generalize (s.agents c).token = token
         by_cases h1 : home = "origin" <;> by_cases h2 : home = "jail" <;> by_cases h3 : home = "valhalla" <;>
           by_cases h4 : token = "norse legend" <;> by_cases h5 : token = "any" <;> simp_all)
      | exact iff_of_true rfl trivial
  · have e : (permissionMap sandboxSecurity []).get? n = none := by
      rw [hn]
      simp only [List.mem_cons, List.not_mem_nil, or_false, not_or] at h
      simp [h]
    unfold decideSim
    rw [e]
    simp only [List.mem_cons, List.not_mem_nil, or_false, not_or] at h
    unfold MayCall
    split
    all_goals simp_all

/-- **C61** When a move succeeds and what it does: the acting agent's home must be unproxied or grant
`transportAgent`, the destination must be another sandbox, unproxied or granting `addAgent`; the
home must list the id of the agent and the destination must not.  Otherwise nothing at all changes. -/
theorem C61_send (s : Sim) (c a : Nat) (d : Ref) (hc : s.acting = some c) :
    (∃ r, (s.agents c).home = some r
        ∧ (r.proxied = true → MayCall (s.agents c).token (s.boxes r.box).id "transportAgent")
        ∧ (d.proxied = true → MayCall (s.agents c).token (s.boxes d.box).id "addAgent")
        ∧ d.box ≠ r.box
        ∧ (∃ x, (s.boxes r.box).agents.get? (s.agents a).id = some x)
        ∧ (∀ x, (s.boxes d.box).agents.get? (s.agents a).id ≠ some x)
        ∧ sendFrom c a d s = (.ok (), sent s r.box a d.box))
    ∨ ((¬ ∃ r, (s.agents c).home = some r
        ∧ (r.proxied = true → MayCall (s.agents c).token (s.boxes r.box).id "transportAgent")
        ∧ (d.proxied = true → MayCall (s.agents c).token (s.boxes d.box).id "addAgent")
        ∧ d.box ≠ r.box
        ∧ (∃ x, (s.boxes r.box).agents.get? (s.agents a).id = some x)
        ∧ (∀ x, (s.boxes d.box).agents.get? (s.agents a).id ≠ some x))
      ∧ ∃ e, sendFrom c a d s = (.error e, s)) := by
  have hg : ∀ (r : Ref) n, LetsIn s r n ↔ (r.proxied = true → MayCall (s.agents c).token (s.boxes r.box).id n) := by
    intro r n
    unfold LetsIn
    rw [C61_methods _ _ s c hc]
  have hf : ∀ b k, (s.boxes b).agents.mem k = false ↔ ∀ x, (s.boxes b).agents.get? k ≠ some x := by
    intro b k
    cases hm : (s.boxes b).agents.mem k with
    | true =>
      obtain ⟨x, hx⟩ := (PyDict.mem_iff _ _).mp hm
      exact ⟨(fun h => nomatch h), fun h => absurd hx (h x)⟩
    | false =>
      refine ⟨fun _ x hx => ?_, fun _ => rfl⟩
      rw [(PyDict.mem_iff _ _).mpr ⟨x, hx⟩] at hm; cases hm
  rcases send_cases c a d s with ⟨r, ⟨h1, h2, h3, h4, h5, h6⟩, h⟩ | ⟨h, e, h'⟩
  · exact .inl ⟨r, h1, (hg _ _).mp h2, (hg _ _).mp h5, h4, (PyDict.mem_iff _ _).mp h3, (hf _ _).mp h6, h⟩
  · refine .inr ⟨?_, e, h'⟩
    rintro ⟨r, h1, h2, h3, h4, h5, h6⟩
    exact h r ⟨h1, (hg _ _).mpr h2, (PyDict.mem_iff _ _).mpr h5, h4, (hg _ _).mpr h3, (hf _ _).mpr h6⟩

/-! ## The population -/

theorem settled_sent {s : Sim} (hs : Settled s) (hi : DistinctIds s) {b a d : Nat} (hb : d ≠ b)
    (hin : (s.boxes b).agents.mem (s.agents a).id = true) : Settled (sent s b a d) ∧ Lives s a b := by
  obtain ⟨x, hx⟩ := (PyDict.mem_iff _ _).mp hin
  have hl := (hs _ _ _).mp hx
  have : x = a := hi _ _ hl.1.symm
  subst this
  refine ⟨fun b' k y => ?_, hl.2⟩
  have hid : ((sent s b x d).agents y).id = (s.agents y).id := by
    unfold sent
    by_cases hy : y = x
    · subst hy; simp
    · simp [hy]
  rw [hid]
  have hlives : Lives (sent s b x d) y b' ↔ if y = x then b' = d else Lives s y b' := by
    unfold Lives sent
    by_cases hy : y = x
    · subst hy; simp; exact eq_comm
    · simp [hy]
  rw [hlives]
  by_cases h1 : b' = b
  · subst h1
    have : ((sent s b' x d).boxes b').agents = (s.boxes b').agents.del (s.agents x).id := by simp [sent]
    rw [this]
    by_cases hk : k = (s.agents x).id
    · subst hk
      rw [PyDict.get?_del, if_pos rfl]
      constructor
      · intro h; cases h
      · rintro ⟨h1, h2⟩
        have := hi _ _ h1
        subst this
        rw [if_pos rfl] at h2
        exact absurd h2.symm hb
    · rw [PyDict.get?_del, if_neg (Ne.symm hk), hs]
      constructor
      · rintro ⟨h1, h2⟩
        refine ⟨h1, ?_⟩
        rw [if_neg (fun e : y = x => hk (by rw [h1, e]))]; exact h2
      · rintro ⟨h1, h2⟩
        refine ⟨h1, ?_⟩
        rw [if_neg (fun e : y = x => hk (by rw [h1, e]))] at h2; exact h2
  · by_cases h2 : b' = d
    · subst h2
      have : ((sent s b x b').boxes b').agents = (s.boxes b').agents.set (s.agents x).id x := by simp [sent, h1]
      rw [this]
      by_cases hk : k = (s.agents x).id
      · subst hk
        simp only [PyDict.get?_set_self]
        constructor
        · intro h; cases h; exact ⟨rfl, by simp⟩
        · rintro ⟨h3, h4⟩
          rw [hi _ _ h3]
      · rw [PyDict.get?_set_ne _ _ (Ne.symm hk), hs]
        constructor
        · rintro ⟨h3, h4⟩
          refine ⟨h3, ?_⟩
          rw [if_neg (fun e : y = x => hk (by rw [h3, e]))]; exact h4
        · rintro ⟨h3, h4⟩
          refine ⟨h3, ?_⟩
          rw [if_neg (fun e : y = x => hk (by rw [h3, e]))] at h4; exact h4
    · have : ((sent s b x d).boxes b') = s.boxes b' := by simp [sent, h1, h2]
      rw [this, hs]
      by_cases hy : y = x
      · subst hy
        rw [if_pos rfl]
        constructor
        · rintro ⟨_, r, h3, h4⟩
          obtain ⟨r', h5, h6⟩ := hl.2
          rw [h5] at h3; cases h3
          exact absurd (h4.symm.trans h6) h1
        · rintro ⟨_, h3⟩; exact absurd h3 h2
      · rw [if_neg hy]

/-- What `addAgent` does. -/
def added (s : Sim) (b a : Nat) : Sim :=
  { s with
    boxes := fun k => if k = b then { s.boxes b with agents := (s.boxes b).agents.set (s.agents a).id a } else s.boxes k
    agents := fun k => if k = a then { s.agents a with home := some ⟨b, s.secured⟩ } else s.agents k }

theorem settled_added {s : Sim} (hs : Settled s) {b a : Nat} (hh : (s.agents a).home = none)
    (hin : (s.boxes b).agents.mem (s.agents a).id = false) : Settled (added s b a) := by
  intro b' k y
  have hid : ((added s b a).agents y).id = (s.agents y).id := by
    unfold added
    by_cases hy : y = a
    · subst hy; simp
    · simp [hy]
  rw [hid]
  have hlives : Lives (added s b a) y b' ↔ if y = a then b' = b else Lives s y b' := by
    unfold Lives added
    by_cases hy : y = a
    · subst hy; simp; exact eq_comm
    · simp [hy]
  have hno : ∀ b, ¬ Lives s a b := by rintro b ⟨r, h, _⟩; rw [hh] at h; cases h
  rw [hlives]
  by_cases h1 : b' = b
  · subst h1
    have : ((added s b' a).boxes b').agents = (s.boxes b').agents.set (s.agents a).id a := by simp [added]
    rw [this]
    by_cases hk : k = (s.agents a).id
    · subst hk
      simp only [PyDict.get?_set_self]
      constructor
      · intro h; cases h; exact ⟨rfl, by simp⟩
      · rintro ⟨h3, h4⟩
        by_cases hy : y = a
        · rw [hy]
        · rw [if_neg hy] at h4
          have := (hs b' _ y).mpr ⟨h3, h4⟩
          rw [(PyDict.mem_iff _ _).mpr ⟨y, this⟩] at hin; cases hin
    · rw [PyDict.get?_set_ne _ _ (Ne.symm hk), hs]
      by_cases hy : y = a
      · subst hy
        exact ⟨fun h => absurd h.2 (hno _), fun h => absurd h.1 hk⟩
      · rw [if_neg hy]
  · have : (added s b a).boxes b' = s.boxes b' := by simp [added, h1]
    rw [this, hs]
    by_cases hy : y = a
    · subst hy
      rw [if_pos rfl]
      exact ⟨fun h => absurd h.2 (hno _), fun h => absurd h.2 h1⟩
    · rw [if_neg hy]

/-- The state after a move. -/
theorem move_cases (m : Travel) (s : Sim) :
    (m.run s).2 = s
    ∨ (∃ c a d r s1, m = .send c a d ∧ (s1 = s ∧ s.secured = false ∨ s1 = { s with acting := some c } ∧ s.secured = true)
        ∧ CanSend s1 c a r d ∧ (m.run s).2 = sent s r.box a d.box)
    ∨ (∃ b a, m = .settle b a ∧ (s.agents a).home = none ∧ (s.boxes b).agents.mem (s.agents a).id = false
        ∧ (m.run s).2 = added s b a) := by
  cases m with
  | settle b a =>
    simp only [Travel.run]
    by_cases hh : (s.agents a).home = none
    · rw [if_pos hh]
      rcases addAgent_cases b a s with ⟨h1, h2⟩ | ⟨h1, h2⟩
      · left; simp only [attempt, h2]; rfl
      · refine .inr (.inr ⟨b, a, rfl, hh, h1, ?_⟩)
        simp only [attempt, h2]; rfl
    · rw [if_neg hh]; exact .inl rfl
  | send c a d =>
    obtain ⟨ag, bx, hm, sec, ac⟩ := s
    cases sec with
    | false =>
      simp only [Travel.run, setupAgent, teardownAgent, sm_bind, sm_read, id, Bool.false_eq_true, if_false, sm_pure, attempt]
      rcases send_cases c a d ⟨ag, bx, hm, false, ac⟩ with ⟨r, h1, h2⟩ | ⟨h1, e, h2⟩
      · rw [h2]
        exact .inr (.inl ⟨c, a, d, r, _, rfl, .inl ⟨rfl, trivial⟩, h1, rfl⟩)
      · rw [h2]; exact .inl rfl
    | true =>
      simp only [Travel.run, setupAgent, teardownAgent, sm_bind, sm_read, id, if_true]
      cases ac with
      | some x => left; simp [sm_raise]
      | none =>
        simp only [Option.isSome, Bool.false_eq_true, if_false, sm_change, attempt]
        rcases send_cases c a d ⟨ag, bx, hm, true, some c⟩ with ⟨r, h1, h2⟩ | ⟨h1, e, h2⟩
        · rw [h2]
          exact .inr (.inl ⟨c, a, d, r, _, rfl, .inr ⟨rfl, trivial⟩, h1, rfl⟩)
        · rw [h2]; exact .inl rfl

/-- What never changes. -/
theorem move_constant (m : Travel) (s : Sim) : (m.run s).2.secured = s.secured
    ∧ (∀ a, ((m.run s).2.agents a).id = (s.agents a).id ∧ ((m.run s).2.agents a).token = (s.agents a).token)
    ∧ (∀ b, ((m.run s).2.boxes b).id = (s.boxes b).id) := by
  rcases move_cases m s with h | ⟨c, a, d, r, s1, _, _, _, h⟩ | ⟨b, a, _, _, _, h⟩
  · rw [h]; exact ⟨rfl, fun _ => ⟨rfl, rfl⟩, fun _ => rfl⟩
  · rw [h]
    refine ⟨rfl, fun x => ?_, fun x => ?_⟩
    · by_cases hx : x = a
      · subst hx; simp [sent]
      · simp [sent, hx]
    · by_cases h1 : x = r.box
      · subst h1; simp [sent]
      · by_cases h2 : x = d.box
        · subst h2; simp [sent, h1]
        · simp [sent, h1, h2]
  · rw [h]
    refine ⟨rfl, fun x => ?_, fun x => ?_⟩
    · by_cases hx : x = a
      · subst hx; simp [added]
      · simp [added, hx]
    · by_cases h1 : x = b
      · subst h1; simp [added]
      · simp [added, h1]

theorem move_settled (m : Travel) (s : Sim) (hs : Settled s) (hi : DistinctIds s) : Settled (m.run s).2 := by
  rcases move_cases m s with h | ⟨c, a, d, r, s1, _, h1, h2, h⟩ | ⟨b, a, _, h1, h2, h⟩
  · rw [h]; exact hs
  · rw [h]
    refine (settled_sent hs hi h2.2.2.2.1 ?_).1
    rcases h1 with ⟨rfl, _⟩ | ⟨rfl, _⟩ <;> exact h2.2.2.1
  · rw [h]; exact settled_added hs h1 h2

theorem move_distinct (m : Travel) (s : Sim) (hi : DistinctIds s) : DistinctIds (m.run s).2 := by
  intro a a' h
  obtain ⟨_, h1, _⟩ := move_constant m s
  rw [(h1 a).1, (h1 a').1] at h
  exact hi _ _ h

/-- **C61** Whatever the agents do with their homes, the books stay right; so each agent is listed in
exactly the sandbox it lives in, under its id. -/
theorem C61_population (s : Sim) (hs : Settled s) (hi : DistinctIds s) (ms : List Travel) : Settled (runTravels ms s) := by
  induction ms generalizing s with
  | nil => exact hs
  | cons m ms ih => exact ih _ (move_settled m s hs hi) (move_distinct m s hi)

theorem move_wired (m : Travel) (s : Sim) (hw : Wired s) : Wired (m.run s).2 := by
  obtain ⟨hsec, _, hb⟩ := move_constant m s
  refine ⟨hsec.trans hw.1, fun x rx hx => ?_⟩
  rw [hb]
  rcases move_cases m s with h | ⟨c, a, d, r, s1, _, _, _, h⟩ | ⟨b, a, _, _, _, h⟩
  · rw [h] at hx; exact hw.2 _ _ hx
  · rw [h] at hx
    by_cases hxa : x = a
    · subst hxa; simp [sent] at hx; subst hx; exact .inl hw.1
    · simp [sent, hxa] at hx; exact hw.2 _ _ hx
  · rw [h] at hx
    by_cases hxa : x = a
    · subst hxa; simp [added] at hx; subst hx; exact .inl hw.1
    · simp [added, hxa] at hx; exact hw.2 _ _ hx

/-- Where an agent is after one move. -/
theorem move_lives (m : Travel) (s : Sim) (hs : Settled s) (hi : DistinctIds s) (hw : Wired s) (a b : Nat)
    (h : Lives (m.run s).2 a b) : Lives s a b ∨ (s.agents a).home = none
      ∨ ∃ c d r, m = .send c a d ∧ (s.agents c).home = some r ∧ Lives s a r.box ∧ b = d.box
        ∧ (r.proxied = true → MayCall (s.agents c).token (s.boxes r.box).id "transportAgent")
        ∧ (d.proxied = true → MayCall (s.agents c).token (s.boxes b).id "addAgent") := by
  rcases move_cases m s with h' | ⟨c, x, d, r, s1, rfl, h1, h2, h'⟩ | ⟨b', x, _, h1, h2, h'⟩
  · rw [h'] at h; exact .inl h
  · rw [h'] at h
    by_cases hx : a = x
    · subst hx
      have hbd : b = d.box := by
        obtain ⟨r', h3, h4⟩ := h
        simp [sent] at h3; subst h3; exact h4.symm
      rcases h1 with ⟨_, h1⟩ | ⟨rfl, _⟩
      · rw [hw.1] at h1; cases h1
      · have hl := (settled_sent hs hi h2.2.2.2.1 h2.2.2.1).2
        refine .inr (.inr ⟨c, d, r, rfl, h2.1, hl, hbd, fun hp => ?_, fun hp => ?_⟩)
        · exact (C61_methods _ _ { s with acting := some c } c rfl).mp (h2.2.1 hp)
        · subst hbd
          exact (C61_methods _ _ { s with acting := some c } c rfl).mp (h2.2.2.2.2.1 hp)
    · left
      obtain ⟨r', h3, h4⟩ := h
      simp [sent, hx] at h3
      exact ⟨r', h3, h4⟩
  · rw [h'] at h
    by_cases hx : a = x
    · subst hx; exact .inr (.inl h1)
    · left
      obtain ⟨r', h3, h4⟩ := h
      simp [added, hx] at h3
      exact ⟨r', h3, h4⟩

/-- Nobody loses its home. -/
theorem move_home (m : Travel) (s : Sim) (a : Nat) (h : (s.agents a).home ≠ none) : ((m.run s).2.agents a).home ≠ none := by
  rcases move_cases m s with h' | ⟨c, x, d, r, s1, _, _, _, h'⟩ | ⟨b', x, _, _, _, h'⟩
  · rw [h']; exact h
  · rw [h']
    by_cases hx : a = x
    · subst hx; simp [sent]
    · simpa [sent, hx] using h
  · rw [h']
    by_cases hx : a = x
    · subst hx; simp [added]
    · simpa [added, hx] using h

theorem sentWithout_step {token : String} {s : Sim} {a : Nat} {m : Travel} {ms : List Travel} (h : SentWithout token s a (m :: ms)) :
    SentWithout token (m.run s).2 a ms := by
  intro c d hm
  obtain ⟨h1, h2⟩ := h c d (List.mem_cons_of_mem _ hm)
  rw [((move_constant m s).2.1 c).2]
  exact ⟨h1, h2⟩

/-- **C61** Jail is a prison: who lives there stays there forever, unless sent by a norse legend.  In
particular greek men who move themselves never get out. -/
theorem C61_prison (s : Sim) (hs : Settled s) (hi : DistinctIds s) (hw : Wired s) (ms : List Travel) (a b : Nat)
    (hb : (s.boxes b).id = "jail") (ha : Lives s a b) (hm : SentWithout "norse legend" s a ms) : Lives (runTravels ms s) a b := by
  induction ms generalizing s with
  | nil => exact ha
  | cons m ms ih =>
    have hc := move_constant m s
    refine ih _ (move_settled m s hs hi) (move_distinct m s hi) (move_wired m s hw) ((hc.2.2 b).trans hb) ?_ (sentWithout_step hm)
    obtain ⟨r, hr, _⟩ := ha
    have hne := move_home m s a (by rw [hr]; exact fun h => nomatch h)
    cases hh : ((m.run s).2.agents a).home with
    | none => exact absurd hh hne
    | some r' =>
      rcases move_lives m s hs hi hw a r'.box ⟨r', hh, rfl⟩ with h | h | ⟨c, d, rc, rfl, h1, h2, h3, h4, h5⟩
      · obtain ⟨r2, h6, h7⟩ := h
        rw [hr] at h6; cases h6
        rename_i hbox
        exact ⟨r', hh, h7 ▸ hbox⟩
      · rw [hr] at h; cases h
      · exfalso
        rename_i hbox
        obtain ⟨r2, h6, h7⟩ := h2
        rw [hr] at h6; cases h6
        have hj : (s.boxes rc.box).id = "jail" := by rw [← h7, hbox]; exact hb
        rcases hw.2 c rc h1 with hp | ho
        · have := h4 hp
          rw [hj] at this
          simp [MayCall] at this
          exact (hm c d (List.mem_cons_self ..)).1 this
        · rw [hj] at ho; exact absurd ho (by decide)

/-- **C61** Nobody who is sent by others than norse legends ever gets to valhalla. -/
theorem C61_valhalla (s : Sim) (hs : Settled s) (hi : DistinctIds s) (hw : Wired s) (ms : List Travel) (a b : Nat)
    (hb : (s.boxes b).id = "valhalla") (hh : (s.agents a).home ≠ none) (hm : SentWithout "norse legend" s a ms)
    (h : Lives (runTravels ms s) a b) : Lives s a b := by
  induction ms generalizing s with
  | nil => exact h
  | cons m ms ih =>
    have hc := move_constant m s
    have := ih _ (move_settled m s hs hi) (move_distinct m s hi) (move_wired m s hw) ((hc.2.2 b).trans hb)
      (move_home m s a hh) (sentWithout_step hm) h
    rcases move_lives m s hs hi hw a b this with h | h | ⟨c, d, rc, rfl, h1, h2, h3, h4, h5⟩
    · exact h
    · exact absurd h hh
    · exfalso
      obtain ⟨hm1, hm2⟩ := hm c d (List.mem_cons_self ..)
      have := h5 hm2
      rw [hb] at this
      simp [MayCall] at this
      exact hm1 this

/-! ## The start -/

theorem boot_ids (n : Nat) : (bootAgents n).id ∈ ["odin", "loki", "thor", "thucydides", "archimedes", "prometheus"] ∧ n < 6
    ∨ 6 ≤ n ∧ (bootAgents n).id = String.ofList (List.replicate (n + 20) 'x') := by
  match n with
  | 0 | 1 | 2 | 3 | 4 | 5 => left; decide
  | n + 6 => exact .inr ⟨by omega, rfl⟩

theorem boot_length (n : Nat) : (n < 6 ∧ (bootAgents n).id.length ≤ 10) ∨ (6 ≤ n ∧ (bootAgents n).id.length = n + 20) := by
  rcases boot_ids n with ⟨h1, h2⟩ | ⟨h1, h2⟩
  · have : ∀ x ∈ ["odin", "loki", "thor", "thucydides", "archimedes", "prometheus"], x.length ≤ 10 := by decide
    exact .inl ⟨h2, this _ h1⟩
  · refine .inr ⟨h1, ?_⟩
    rw [h2, String.length_ofList, List.length_replicate]

theorem bootStart_distinct : DistinctIds bootStart := by
  intro a a' h
  have h : (bootAgents a).id = (bootAgents a').id := h
  have hl := congrArg String.length h
  rcases boot_length a with ⟨h1, h2⟩ | ⟨h1, h2⟩ <;> rcases boot_length a' with ⟨h3, h4⟩ | ⟨h3, h4⟩
  · have : ∀ i : Fin 6, ∀ j : Fin 6, (bootAgents i).id = (bootAgents j).id → i = j := by decide
    exact congrArg Fin.val (this ⟨a, h1⟩ ⟨a', h3⟩ h)
  · omega
  · omega
  · omega

theorem bootStart_settled : Settled bootStart := by
  intro b k a
  constructor
  · intro h
    have : (bootBoxes b).agents = [] := by unfold bootBoxes; split <;> rfl
    simp only [bootStart, this] at h
    cases h
  · rintro ⟨_, r, h, _⟩
    have : (bootAgents a).home = none := by unfold bootAgents; split <;> rfl
    simp only [bootStart, this] at h
    cases h

/-- The start is made of moves. -/
theorem boot_moves : boot false = runTravels [.settle 1 0, .settle 1 1, .settle 1 2, .settle 1 3, .settle 1 4, .settle 1 5] bootStart := by
  rfl

theorem runTravels_distinct (ms : List Travel) (s : Sim) (hi : DistinctIds s) : DistinctIds (runTravels ms s) := by
  induction ms generalizing s with
  | nil => exact hi
  | cons m ms ih => exact ih _ (move_distinct m s hi)

/-- **C61** The state the module starts with meets the conditions of the theorems, wired or not. -/
theorem C61_boot (b : Bool) : Settled (boot b) ∧ DistinctIds (boot b) ∧ Wired (boot true) := by
  have h1 : Settled (boot false) := by
    rw [boot_moves]; exact C61_population _ bootStart_settled bootStart_distinct _
  have h2 : DistinctIds (boot false) := by
    rw [boot_moves]; exact runTravels_distinct _ _ bootStart_distinct
  refine ⟨h1, h2, rfl, fun a r h => .inr ?_⟩
  match a with
  | 0 | 1 | 2 | 3 | 4 | 5 => cases h; rfl
  | n + 6 => cases h

/-- Thucydides (3) goes to jail; whatever happens afterwards, if agents move only themselves, there it
stays. -/
example (ms : List Travel) (h : ∀ c a d, .send c a d ∈ ms → c = a ∧ d.proxied = true) :
    Lives (runTravels (.send 3 3 ⟨0, true⟩ :: ms) (boot true)) 3 0 := by
  have h0 := C61_boot true
  have hc := move_constant (.send 3 3 ⟨0, true⟩) (boot true)
  refine C61_prison _ (move_settled _ _ h0.1 h0.2.1) (move_distinct _ _ h0.2.1) (move_wired _ _ h0.2.2) ms 3 0 rfl ⟨_, rfl, rfl⟩ ?_
  intro c d hm
  obtain ⟨rfl, hd⟩ := h _ _ _ hm
  exact ⟨by decide, hd⟩

/-- Odin (0) goes to valhalla, thucydides cannot. -/
example : Lives (runTravels [.send 0 0 ⟨2, true⟩, .send 3 3 ⟨2, true⟩] (boot true)) 0 2
    ∧ Lives (runTravels [.send 0 0 ⟨2, true⟩, .send 3 3 ⟨2, true⟩] (boot true)) 3 1 := ⟨⟨_, rfl, rfl⟩, ⟨_, rfl, rfl⟩⟩

/-- **C61** A norse legend in jail can send a greek out: the policy looks at who asks, not at who is
moved. -/
theorem C61_freed : ∃ ms : List Travel, Lives (runTravels [.send 3 3 ⟨0, true⟩] (boot true)) 3 0
    ∧ Lives (runTravels (.send 3 3 ⟨0, true⟩ :: ms) (boot true)) 3 2 :=
  ⟨[.send 0 0 ⟨0, true⟩, .send 0 3 ⟨2, true⟩], ⟨_, rfl, rfl⟩, ⟨_, rfl, rfl⟩⟩

/-- **C61** The ids must be distinct: sending away an agent that has the id of a resident strikes the
resident off the list of the home it still lives in. -/
theorem C61_namesake : ∃ (s : Sim) (m : Travel), Settled s ∧ ¬ Settled (m.run s).2 := by
  refine ⟨{ boot false with agents := fun k => if k = 6 then ⟨"odin", "stranger", none, .findTime⟩ else (boot false).agents k },
    .send 1 6 ⟨2, false⟩, ?_, ?_⟩
  · have h1 := (C61_boot false).1
    have h2 := (C61_boot false).2.1
    intro b k a
    by_cases ha : a = 6
    · subst ha
      refine ⟨fun h => ?_, ?_⟩
      · have := ((h1 b k 6).mp h).2
        obtain ⟨r, h3, _⟩ := this
        cases h3
      · rintro ⟨_, r, h3, _⟩
        cases h3
    · have := h1 b k a
      simpa [Lives, ha] using this
  · intro h
    have := (h 1 "odin" 0).mpr ⟨rfl, ⟨1, false⟩, rfl, rfl⟩
    exact absurd this (by decide)

/-! ## What the agents do -/

theorem service_names (sid : String) (n : Name) (home : String) (s : Sim) (c : Nat) (hc : s.acting = some c)
    (h : (sid, n) ∈ [("TimeService", "getTime"), ("HomeDiscoveryService", "getAvailableHomes"), ("AgentDiscoveryService", "getLocalAgents")]) :
    (decideSim (serviceSecurity sid) home n s).1 = .ok () ↔ MayServe (s.agents c).token home sid := by
  simp only [List.mem_cons, Prod.mk.injEq, List.not_mem_nil, or_false] at h
  rcases h with ⟨rfl, rfl⟩ | ⟨rfl, rfl⟩ | ⟨rfl, rfl⟩ <;>
  · rw [decide_perm _ home _ s c hc _ rfl]
    simp only [lists_iff, MayServe]
    generalize (s.agents c).token = token
    by_cases h1 : home = "origin" <;> by_cases h2 : home = "jail" <;> by_cases h3 : home = "valhalla" <;>
      by_cases h4 : token = "norse legend" <;> by_cases h5 : token = "any" <;> simp_all

theorem onService_cases {α : Type} (r : Ref) (sid : String) (n : Name) (body : Sm α) (s : Sim) :
    (LetsIn s r "getService" ∧ sid ∈ (s.boxes r.box).services
      ∧ (r.proxied = true → (decideSim (serviceSecurity sid) (s.boxes r.box).id n s).1 = .ok ()) ∧ onService r sid n body s = body s)
    ∨ (¬ (LetsIn s r "getService" ∧ sid ∈ (s.boxes r.box).services
      ∧ (r.proxied = true → (decideSim (serviceSecurity sid) (s.boxes r.box).id n s).1 = .ok ()))
      ∧ ∃ e, onService r sid n body s = (.error e, s)) := by
  unfold onService
  simp only [sm_bind]
  rcases through_cases r "getService" (read fun s => decide (sid ∈ (s.boxes r.box).services)) s with ⟨g, h⟩ | ⟨g, e, h⟩
  · rw [h]
    simp only [sm_read]
    by_cases hs : sid ∈ (s.boxes r.box).services
    · simp only [hs, decide_true, if_true]
      cases hp : r.proxied with
      | false => exact .inl ⟨g, trivial, (fun h => nomatch h), rfl⟩
      | true =>
        have hst := decideSim_state (serviceSecurity sid) (s.boxes r.box).id n s
        rcases hd : decideSim (serviceSecurity sid) (s.boxes r.box).id n s with ⟨x, s'⟩
        rw [hd] at hst
        simp only at hst
        subst hst
        cases x with
        | ok u => exact .inl ⟨g, trivial, fun _ => rfl, by simp [sm_bind, sm_read, hd]⟩
        | error e => exact .inr ⟨(fun h => nomatch h.2.2 rfl), e, by simp [sm_bind, sm_read, hd]⟩
    · simp only [hs, decide_false]
      exact .inr ⟨fun h => h.2.1, _, rfl⟩
  · rw [h]
    exact .inr ⟨fun h => g h.1, e, rfl⟩

/-- What an action gives when it is permitted. -/
def answerOf (s : Sim) (b : Nat) : Deed → Answer
  | .findTime => .time
  | .findNeighbors => .agents ((s.boxes b).agents.map Prod.snd)
  | .findHomes => .ids s.homes.keys

/-- **C61** What agents can find out: an unproxied home, the origin and valhalla tell everything to
everybody.  A proxied jail tells everything to norse legends and nothing to others, not even the
time, although its table grants the time service to everybody. -/
theorem C61_deeds (s : Sim) (c : Nat) (hc : s.acting = some c) (r : Ref) (d : Deed)
    (hsv : ∀ x ∈ ["HomeDiscoveryService", "AgentDiscoveryService", "TimeService"], x ∈ (s.boxes r.box).services) :
    ((r.proxied = true → (s.boxes r.box).id = "origin" ∨ (s.boxes r.box).id = "valhalla"
        ∨ (s.boxes r.box).id = "jail" ∧ (s.agents c).token = "norse legend")
      ∧ deedOf d r s = (.ok (answerOf s r.box d), s))
    ∨ (¬ (r.proxied = true → (s.boxes r.box).id = "origin" ∨ (s.boxes r.box).id = "valhalla"
        ∨ (s.boxes r.box).id = "jail" ∧ (s.agents c).token = "norse legend")
      ∧ ∃ e, deedOf d r s = (.error e, s)) := by
  have hg : ∀ n, LetsIn s r n ↔ (r.proxied = true → MayCall (s.agents c).token (s.boxes r.box).id n) := by
    intro n; unfold LetsIn; rw [C61_methods _ _ s c hc]
  have key : ∀ sid n, (sid, n) ∈ [("TimeService", "getTime"), ("HomeDiscoveryService", "getAvailableHomes"), ("AgentDiscoveryService", "getLocalAgents")] →
      ∀ (body : Sm Answer), ((r.proxied = true → (s.boxes r.box).id = "origin" ∨ (s.boxes r.box).id = "valhalla"
          ∨ (s.boxes r.box).id = "jail" ∧ (s.agents c).token = "norse legend") ∧ onService r sid n body s = body s)
        ∨ (¬ (r.proxied = true → (s.boxes r.box).id = "origin" ∨ (s.boxes r.box).id = "valhalla"
          ∨ (s.boxes r.box).id = "jail" ∧ (s.agents c).token = "norse legend") ∧ ∃ e, onService r sid n body s = (.error e, s)) := by
    intro sid n hmem body
    have hsid : sid ∈ (s.boxes r.box).services := by
      refine hsv sid ?_
      simp only [List.mem_cons, Prod.mk.injEq, List.not_mem_nil, or_false] at hmem ⊢
      rcases hmem with ⟨rfl, _⟩ | ⟨rfl, _⟩ | ⟨rfl, _⟩ <;> simp
    have hserve := service_names sid n (s.boxes r.box).id s c hc hmem
    have hgs := hg "getService"
    simp only [MayCall] at hgs
    have himp : ((s.boxes r.box).id = "origin" ∨ (s.boxes r.box).id = "valhalla" ∨ (s.boxes r.box).id = "jail" ∧ (s.agents c).token = "norse legend")
        → MayServe (s.agents c).token (s.boxes r.box).id sid := by
      simp only [List.mem_cons, Prod.mk.injEq, List.not_mem_nil, or_false] at hmem
      rcases hmem with ⟨rfl, _⟩ | ⟨rfl, _⟩ | ⟨rfl, _⟩
      · rintro (h | h | h)
        · exact .inl h
        · exact .inr (.inl h)
        · exact .inr (.inr h.1)
      · exact id
      · exact id
    rcases onService_cases r sid n body s with ⟨h1, _, _, h⟩ | ⟨h1, h⟩
    · exact .inl ⟨hgs.mp h1, h⟩
    · exact .inr ⟨fun h' => h1 ⟨hgs.mpr h', hsid, fun hp => hserve.mpr (himp (h' hp))⟩, h⟩
  cases d with
  | findTime => exact key _ _ (by decide) _
  | findHomes => exact key _ _ (by decide) _
  | findNeighbors =>
    rcases key "AgentDiscoveryService" "getLocalAgents" (by decide)
        (through r "getAgents" (read fun s => .agents ((s.boxes r.box).agents.map Prod.snd))) with ⟨h1, h2⟩ | h
    · refine .inl ⟨h1, ?_⟩
      simp only [deedOf, h2]
      rcases through_cases r "getAgents" (read fun s => Answer.agents ((s.boxes r.box).agents.map Prod.snd)) s with ⟨_, h⟩ | ⟨h, _⟩
      · rw [h]; rfl
      · exact absurd ((hg "getAgents").mpr h1) h
    · exact .inr h

/-- **C61** The checker of sandboxes forbids `getAgentIds` to everybody (its table says `getAgentsIds`). -/
theorem C61_misspelt (s : Sim) (home : String) : decideSim sandboxSecurity home "getAgentIds" s = (.error (.forbidden "getAgentIds"), s) := rfl

/-! ## Turns -/

theorem act_state (a : Nat) (s : Sim) : (act a s).2 = s := by
  unfold act
  simp only [sm_bind, sm_read]
  cases (s.agents a).home with
  | none => rfl
  | some r =>
    simp only
    cases (s.agents a).deed with
    | findTime =>
      unfold deedOf
      simp only
      rcases onService_cases r "TimeService" "getTime" (read fun _ => Answer.time) s with ⟨_, _, _, h⟩ | ⟨_, e, h⟩ <;> rw [h] <;> rfl
    | findHomes =>
      unfold deedOf
      simp only
      rcases onService_cases r "HomeDiscoveryService" "getAvailableHomes" (read fun s => Answer.ids s.homes.keys) s with ⟨_, _, _, h⟩ | ⟨_, e, h⟩ <;>
        rw [h] <;> rfl
    | findNeighbors =>
      unfold deedOf
      simp only
      rcases onService_cases r "AgentDiscoveryService" "getLocalAgents"
        (through r "getAgents" (read fun s => Answer.agents ((s.boxes r.box).agents.map Prod.snd))) s with ⟨_, _, _, h⟩ | ⟨_, e, h⟩ <;> rw [h]
      rcases through_cases r "getAgents" (read fun s => Answer.agents ((s.boxes r.box).agents.map Prod.snd)) s with ⟨_, h⟩ | ⟨_, e, h⟩ <;> rw [h] <;> rfl

/-- The first loop leaves everything as it is, or fails at once. -/
theorem actAll_run (l : List Nat) (s : Sim) :
    (s.secured = true → s.acting = none) → actAll l s = (.ok (), s) := by
  induction l with
  | nil => intro _; rfl
  | cons a as ih =>
    intro h
    obtain ⟨ag, bx, hm, sec, ac⟩ := s
    have hatt : ∀ s, attempt (do let _ ← act a) (fun _ => (pure () : Sm Unit)) s = (.ok (), s) := by
      intro s
      have hst := act_state a s
      rcases hr : act a s with ⟨x, s'⟩
      rw [hr] at hst
      simp only at hst
      subst hst
      cases x <;> simp [attempt, sm_bind, hr, sm_pure]
    cases sec with
    | false =>
      simp only [actAll, setupAgent, teardownAgent, sm_bind, sm_read, id, Bool.false_eq_true, if_false, sm_pure, hatt]
      exact ih (fun h => nomatch h)
    | true =>
      have : ac = none := h rfl
      subst this
      simp only [actAll, setupAgent, teardownAgent, sm_bind, sm_read, id, if_true, Option.isSome, Bool.false_eq_true, if_false, sm_change, hatt]
      exact ih h

/-- With an interaction left behind, the first loop fails at its first agent. -/
theorem actAll_stuck (a : Nat) (as : List Nat) (s : Sim) (h1 : s.secured = true) (h2 : s.acting ≠ none) :
    actAll (a :: as) s = (.error .assertion, s) := by
  obtain ⟨ag, bx, hm, sec, ac⟩ := s
  simp only at h1
  subst h1
  cases ac with
  | none => exact absurd rfl h2
  | some x => rfl

/-- The state left behind when moving fails for `a`. -/
def abandoned (s : Sim) (a : Nat) : Sim := if s.secured then { s with acting := some a } else s

theorem moveAll_run (wander : Nat → Nat → Bool) (b : Nat) (l : List Nat) (s : Sim) (hac : s.secured = true → s.acting = none) (size : Nat)
    (hz : (s.boxes b).agents.length = size) :
    ((∀ a ∈ l, wander b a = false) ∧ moveAll greenerPastures wander b size l none s = (.ok none, s))
    ∨ (∃ a ∈ l, wander b a = true ∧ moveAll greenerPastures wander b size l none s = (.error .unboundLocal, abandoned s a)) := by
  induction l with
  | nil =>
    left
    refine ⟨by simp, ?_⟩
    simp [moveAll, sm_bind, sm_read, hz, sm_pure]
  | cons a as ih =>
    unfold moveAll
    simp only [sm_bind, sm_read, id, hz, ne_eq, not_true_eq_false, if_false]
    cases hw : wander b a with
    | false =>
      simp only [Bool.false_eq_true, if_false]
      rcases ih with ⟨h1, h2⟩ | ⟨x, h1, h2, h3⟩
      · left
        refine ⟨?_, h2⟩
        intro x hx
        rcases List.mem_cons.mp hx with rfl | hx
        · exact hw
        · exact h1 x hx
      · exact .inr ⟨x, List.mem_cons_of_mem _ h1, h2, h3⟩
    | true =>
      right
      refine ⟨a, List.mem_cons_self .., hw, ?_⟩
      obtain ⟨ag, bx, hm, sec, ac⟩ := s
      cases sec with
      | false => rfl
      | true =>
        have : ac = none := hac rfl
        subst this
        rfl

theorem turnHomes_run (wander : Nat → Nat → Bool) (bs : List Nat) (s : Sim) (hac : s.secured = true → s.acting = none) :
    ((∀ b ∈ bs, ∀ a ∈ (s.boxes b).agents.map Prod.snd, wander b a = false) ∧ turnHomes greenerPastures wander bs none s = (.ok (), s))
    ∨ (∃ b ∈ bs, ∃ a ∈ (s.boxes b).agents.map Prod.snd, wander b a = true
        ∧ turnHomes greenerPastures wander bs none s = (.error .unboundLocal, abandoned s a)) := by
  induction bs with
  | nil => exact .inl ⟨by simp, rfl⟩
  | cons b bs ih =>
    unfold turnHomes
    simp only [sm_bind, sm_read, actAll_run _ s hac]
    rcases moveAll_run wander b ((s.boxes b).agents.map Prod.snd) s hac
      ((s.boxes b).agents.map Prod.snd).length (by rw [List.length_map]) with ⟨h1, h2⟩ | ⟨a, h1, h2, h3⟩
    · rw [h2]
      simp only
      rcases ih with ⟨h3, h4⟩ | ⟨b', h3, a, h4, h5, h6⟩
      · left
        refine ⟨?_, h4⟩
        intro x hx
        rcases List.mem_cons.mp hx with rfl | hx
        · exact h1
        · exact h3 x hx
      · exact .inr ⟨b', List.mem_cons_of_mem _ h3, a, h4, h5, h6⟩
    · rw [h3]
      exact .inr ⟨b, List.mem_cons_self .., a, h1, h2, rfl⟩

/-- **C62** A turn as shipped, on Python 3: when no agent wants to move, nothing changes; otherwise
`UnboundLocalError` escapes.  Nobody ever moves.  The wired simulation leaves the interaction behind. -/
theorem C62_turn (wander : Nat → Nat → Bool) (s : Sim) (hac : s.secured = true → s.acting = none) :
    ((∀ b ∈ s.homes.map Prod.snd, ∀ a ∈ (s.boxes b).agents.map Prod.snd, wander b a = false)
      ∧ turn greenerPastures wander s = (.ok (), s))
    ∨ (∃ b ∈ s.homes.map Prod.snd, ∃ a ∈ (s.boxes b).agents.map Prod.snd, wander b a = true
      ∧ turn greenerPastures wander s = (.error .unboundLocal, if s.secured then { s with acting := some a } else s)) :=
  turnHomes_run wander (s.homes.map Prod.snd) s hac

/-- **C62** After that, the wired simulation is stuck: every turn with somebody to act fails at once,
whatever `GreenerPastures` does. -/
theorem C62_stuck (greener : Nat → Sm Ref) (wander : Nat → Nat → Bool) (s : Sim) (h1 : s.secured = true) (h2 : s.acting ≠ none)
    (hsome : ∃ b ∈ s.homes.map Prod.snd, (s.boxes b).agents ≠ []) :
    turn greener wander s = (.error .assertion, s) := by
  unfold turn
  simp only [sm_bind, sm_read]
  obtain ⟨b, hb, hne⟩ := hsome
  generalize hbound : (none : Option Ref) = bound
  clear hbound
  generalize s.homes.map Prod.snd = bs at hb ⊢
  induction bs generalizing bound with
  | nil => cases hb
  | cons b' bs ih =>
    unfold turnHomes
    simp only [sm_bind, sm_read]
    cases hl : (s.boxes b').agents.map Prod.snd with
    | cons a as => rw [actAll_stuck a as s h1 h2]
    | nil =>
      have he : (s.boxes b').agents = [] := List.map_eq_nil_iff.mp hl
      simp only [actAll, sm_pure, moveAll, sm_bind, sm_read, id, he, List.length_nil, ne_eq, not_true_eq_false, if_false]
      rcases List.mem_cons.mp hb with rfl | hb
      · exact absurd he hne
      · exact ih bound hb

/-! ## Turns with a repaired `GreenerPastures` -/

theorem length_del_lt {d : PyDict String Nat} {k : String} (h : d.mem k = true) : (d.del k).length < d.length := by
  obtain ⟨v, hv⟩ := (PyDict.mem_iff _ _).mp h
  have hm := PyDict.mem_of_get? hv
  unfold PyDict.del
  apply List.length_filter_lt_length_iff_exists.mpr
  exact ⟨_, hm, by simp⟩

theorem moveAll_shrunk (greener : Nat → Sm Ref) (wander : Nat → Nat → Bool) (b size : Nat) (l : List Nat) (bound : Option Ref) (s : Sim)
    (h : (s.boxes b).agents.length ≠ size) : moveAll greener wander b size l bound s = (.error .runtime, s) := by
  cases l with
  | nil => simp [moveAll, sm_bind, sm_read, h, sm_raise]
  | cons a as => simp [moveAll, sm_bind, sm_read, h, sm_raise]

/-- The interaction of `a` set up, if wired. -/
def entered (s : Sim) (a : Nat) : Sim := if s.secured then { s with acting := some a } else s

theorem setup_run (s : Sim) (a : Nat) (hac : s.secured = true → s.acting = none) : setupAgent a s = (.ok (), entered s a) := by
  obtain ⟨ag, bx, hm, sec, ac⟩ := s
  cases sec with
  | false => rfl
  | true => have : ac = none := hac rfl; subst this; rfl

theorem teardown_entered (s : Sim) (a : Nat) (hac : s.secured = true → s.acting = none) : teardownAgent (entered s a) = (.ok (), s) := by
  obtain ⟨ag, bx, hm, sec, ac⟩ := s
  cases sec with
  | false => rfl
  | true => have : ac = none := hac rfl; subst this; rfl

theorem teardown_sent (s : Sim) (a b x d : Nat) (hac : s.secured = true → s.acting = none) :
    teardownAgent (sent (entered s a) b x d) = (.ok (), sent s b x d) := by
  obtain ⟨ag, bx, hm, sec, ac⟩ := s
  cases sec with
  | false => rfl
  | true => have : ac = none := hac rfl; subst this; rfl

theorem entered_same (s : Sim) (a : Nat) : (entered s a).agents = s.agents ∧ (entered s a).boxes = s.boxes := by
  unfold entered
  split <;> exact ⟨rfl, rfl⟩

theorem relocate_ends (greener : Nat → Sm Ref) (hg : ∀ a s, (greener a s).2 = s) (a : Nat) (bound : Option Ref) (s : Sim) :
    (∃ bd, relocate greener a bound s = (.ok bd, s))
    ∨ (∃ r d bd, CanSend s a a r d ∧ relocate greener a bound s = (.ok bd, sent s r.box a d.box))
    ∨ relocate greener a bound s = (.error .unboundLocal, s) := by
  unfold relocate
  have hg' := hg a s
  rcases hgr : greener a s with ⟨x, s1⟩
  rw [hgr] at hg'
  simp only at hg'
  subst hg'
  cases x with
  | error e =>
    cases bound with
    | none => exact .inr (.inr rfl)
    | some r0 => exact .inl ⟨_, rfl⟩
  | ok r =>
    simp only [attempt, sm_bind]
    rcases send_cases a a r s1 with ⟨rr, h1, h2⟩ | ⟨_, e, h2⟩
    · rw [h2]; exact .inr (.inl ⟨rr, r, _, h1, rfl⟩)
    · rw [h2]; exact .inl ⟨_, rfl⟩

theorem moveAll_cons (greener : Nat → Sm Ref) (wander : Nat → Nat → Bool) (b a : Nat) (as : List Nat) (s : Sim)
    (hac : s.secured = true → s.acting = none) (bound : Option Ref) (hw : wander b a = true) :
    moveAll greener wander b (s.boxes b).agents.length (a :: as) bound s
      = (relocate greener a bound >>= fun bd => teardownAgent >>= fun _ => moveAll greener wander b (s.boxes b).agents.length as bd)
        (entered s a) := by
  conv => lhs; unfold moveAll
  simp only [sm_bind, sm_read, id, ne_eq, not_true_eq_false, if_false, hw, if_true, setup_run s a hac, sm_ite]

/-- The three ends of the moving loop for one sandbox. -/
theorem moveAll_ends (greener : Nat → Sm Ref) (hg : ∀ a s, (greener a s).2 = s) (wander : Nat → Nat → Bool) (b : Nat) (l : List Nat)
    (s : Sim) (hs : ∀ a ∈ l, Lives s a b) (hac : s.secured = true → s.acting = none) (size : Nat) (hz : (s.boxes b).agents.length = size)
    (bound : Option Ref) :
    (∃ bound', moveAll greener wander b size l bound s = (.ok bound', s))
    ∨ (∃ a d, Lives s a b ∧ moveAll greener wander b size l bound s = (.error .runtime, sent s b a d))
    ∨ (∃ s', moveAll greener wander b size l bound s = (.error .unboundLocal, s') ∧ s'.agents = s.agents ∧ s'.boxes = s.boxes) := by
  induction l generalizing bound with
  | nil => exact .inl ⟨bound, by simp [moveAll, sm_bind, sm_read, hz, sm_pure]⟩
  | cons a as ih =>
    have ih := fun bound => ih (fun x hx => hs x (List.mem_cons_of_mem _ hx)) bound
    have ha := hs a (List.mem_cons_self ..)
    cases hw : wander b a with
    | false =>
      unfold moveAll
      simp only [sm_bind, sm_read, id, hz, ne_eq, not_true_eq_false, if_false, hw, Bool.false_eq_true]
      exact ih bound
    | true =>
      subst hz
      have hc := moveAll_cons greener wander b a as s hac bound hw
      have hent := entered_same s a
      rcases relocate_ends greener hg a bound (entered s a) with ⟨bd, h⟩ | ⟨r, d, bd, h1, h⟩ | h
      · simp only [sm_bind, h, teardown_entered s a hac] at hc
        rw [hc]; exact ih bd
      · simp only [sm_bind, h, teardown_sent s a r.box a d.box hac] at hc
        obtain ⟨hh, _, hm, hne, _, _⟩ := h1
        rw [hent.1] at hh hm
        rw [hent.2] at hm
        obtain ⟨r', h3, h4⟩ := ha
        rw [hh] at h3
        cases h3
        subst h4
        refine .inr (.inl ⟨a, d.box, ⟨r, hh, rfl⟩, ?_⟩)
        rw [hc]
        apply moveAll_shrunk
        have := length_del_lt hm
        simp only [sent, if_true]
        omega
      · simp only [sm_bind, h] at hc
        exact .inr (.inr ⟨_, hc, hent⟩)

/-- **C62** Even with a `GreenerPastures` that works (any that only chooses), at most one agent moves in
a turn: the loop runs over a dictionary that the move changes, so that `RuntimeError` escapes. -/
theorem C62_one_move (greener : Nat → Sm Ref) (hg : ∀ a s, (greener a s).2 = s) (wander : Nat → Nat → Bool) (s : Sim) (hs : Settled s)
    (hn : ∀ b, (s.boxes b).agents.keys.Nodup) (hac : s.secured = true → s.acting = none) :
    turn greener wander s = (.ok (), s)
    ∨ (∃ b a d, Lives s a b ∧ turn greener wander s = (.error .runtime, sent s b a d))
    ∨ (∃ s', turn greener wander s = (.error .unboundLocal, s') ∧ s'.agents = s.agents ∧ s'.boxes = s.boxes) := by
  unfold turn
  simp only [sm_bind, sm_read]
  generalize (none : Option Ref) = bound
  generalize s.homes.map Prod.snd = bs
  induction bs generalizing bound with
  | nil => exact .inl rfl
  | cons b bs ih =>
    unfold turnHomes
    simp only [sm_bind, sm_read, actAll_run _ s hac]
    have hl : ∀ a ∈ (s.boxes b).agents.map Prod.snd, Lives s a b := by
      intro a ha
      obtain ⟨⟨k, x⟩, h1, h2⟩ := List.mem_map.mp ha
      simp only at h2
      subst h2
      exact ((hs b k x).mp (PyDict.get?_of_mem (hn b) h1)).2
    rcases moveAll_ends greener hg wander b _ s hl hac ((s.boxes b).agents.map Prod.snd).length (by rw [List.length_map]) bound with
      ⟨bound', h⟩ | ⟨a, d, h1, h⟩ | ⟨s', h, h1⟩
    · rw [h]; exact ih bound'
    · rw [h]; exact .inr (.inl ⟨b, a, d, h1, rfl⟩)
    · rw [h]; exact .inr (.inr ⟨s', rfl, h1⟩)

/-- The shipped start: all homes have distinct keys; a turn in which everybody wants to move fails and leaves odin's interaction
behind; with a repaired `GreenerPastures`, odin moves to valhalla and the turn fails. -/
example : (∀ b, ((boot true).boxes b).agents.keys.Nodup)
    ∧ (turn greenerPastures (fun _ _ => true) (boot true)).2.acting = some 0
    ∧ (match (turn (fun _ => pure ⟨2, true⟩) (fun _ _ => true) (boot true)).1 with | .error e => e = .runtime | .ok _ => False)
    ∧ ((turn (fun _ => pure ⟨2, true⟩) (fun _ _ => true) (boot true)).2.agents 0).home = some ⟨2, true⟩ := by
  refine ⟨fun b => ?_, rfl, rfl, rfl⟩
  match b with
  | 0 => decide
  | 1 => decide
  | n + 2 => exact List.nodup_nil

end ZS.Props
