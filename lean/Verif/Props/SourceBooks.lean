import Verif.Props.SourceSimulation
import Verif.Lemmas.Dict

/-!
# C92, concluded: what a sandbox says of who lives in it
-/

namespace ZS.Props
open ZS ZS.PyC ZS.Src ZS.Spec
set_option maxHeartbeats 1000000

theorem bk_agents (b : Nat) (k : PV → St Sim → Res PV × St Sim) (h : Exn → St Sim → Res PV × St Sim) (s : St Sim) :
    fork (smMethod1 (bookV b "_agents") "keys" [] []) k h s = k (viewV ((s.app.boxes b).agents.keys.map textV)) s := (rfl)
theorem bk_services (b : Nat) (k : PV → St Sim → Res PV × St Sim) (h : Exn → St Sim → Res PV × St Sim) (s : St Sim) :
    fork (smMethod1 (bookV b "_services") "keys" [] []) k h s = k (viewV ((s.app.boxes b).services.map textV)) s := (rfl)

/-- **C92** `Sandbox.getAgentIds`, `getServiceIds` and `getHome` (examples/sandbox.py:129-130, 135-136, 141-142). -/
theorem C92_books (b : Nat) (s : St Sim) :
    run simLang1 Sandbox.Sandbox.getAgentIds [boxV ⟨b, false⟩] s = (.ok (viewV ((s.app.boxes b).agents.keys.map textV)), s)
    ∧ run simLang1 Sandbox.Sandbox.getServiceIds [boxV ⟨b, false⟩] s = (.ok (viewV ((s.app.boxes b).services.map textV)), s)
    ∧ run simLang1 Sandbox.Sandbox.getHome [boxV ⟨b, false⟩] s = (.ok (boxV ⟨b, false⟩), s) := by
  refine ⟨?_, ?_, ?_⟩
  · refine fork_run ?_
    smsteps [Sandbox.Sandbox.getAgentIds, bk_agents]
    rfl
  · refine fork_run ?_
    smsteps [Sandbox.Sandbox.getServiceIds, bk_services]
    rfl
  · refine fork_run ?_
    smsteps [Sandbox.Sandbox.getHome]
    rfl

/-- The function that is `Sandbox.addAgent` before `wire_security`, and after. -/
def addingFn (wired : Bool) : Fn := if wired then SandboxSecurity.wire_security.addAgent else Sandbox.Sandbox.addAgent

/-- **C92** Once `addAgent` has returned, the sandbox lists the agent, which it did not before; it lists everyone else as
before, no other sandbox lists anyone else, the services stay, and the agent says that it lives there. -/
theorem C92_joined (a b : Nat) (s t : St Sim) (v : PV)
    (hr : run simLang1 (addingFn s.app.secured) [boxV ⟨b, false⟩, agentV a] s = (.ok v, t)) :
    (∃ l : List String, run simLang1 Sandbox.Sandbox.getAgentIds [boxV ⟨b, false⟩] t = (.ok (viewV (l.map textV)), t)
      ∧ (s.app.agents a).id ∈ l ∧ (s.app.agents a).id ∉ (s.app.boxes b).agents.keys
      ∧ ∀ x, x ∈ l ↔ x = (s.app.agents a).id ∨ x ∈ (s.app.boxes b).agents.keys)
    ∧ (∀ c, c ≠ b → (run simLang1 Sandbox.Sandbox.getAgentIds [boxV ⟨c, false⟩] t).1 = (run simLang1 Sandbox.Sandbox.getAgentIds [boxV ⟨c, false⟩] s).1)
    ∧ (∀ c, (run simLang1 Sandbox.Sandbox.getServiceIds [boxV ⟨c, false⟩] t).1 = (run simLang1 Sandbox.Sandbox.getServiceIds [boxV ⟨c, false⟩] s).1)
    ∧ run simLang0 Sandbox.Agent.getHome [agentV a] t = (.ok (boxV ⟨b, s.app.secured⟩), t) := by
  have h1 : run simLang1 (addingFn s.app.secured) [boxV ⟨b, false⟩, agentV a] s = liftSm (addAgent b a) (fun _ => .v .none) s := by
    cases hs : s.app.secured with
    | true => exact (C92_addAgent a b s).2 hs
    | false => exact (C92_addAgent a b s).1 hs
  rw [h1, lift_add] at hr
  cases hm : (s.app.boxes b).agents.mem (s.app.agents a).id with
  | true => rw [hm] at hr; simp at hr
  | false =>
    rw [hm] at hr
    simp only [Bool.false_eq_true, if_false, Prod.mk.injEq] at hr
    have ht := hr.2
    subst ht
    refine ⟨⟨_, (C92_books b _).1, ?_, ?_, ?_⟩, ?_, ?_, ?_⟩
    · simp [withBox, withHome, PyDict.mem_keys_set]
    · intro hk
      have hn : (s.app.boxes b).agents.get? (s.app.agents a).id = none := by
        unfold PyDict.mem at hm
        cases hg : (s.app.boxes b).agents.get? (s.app.agents a).id with
        | none => rfl
        | some _ => rw [hg] at hm; cases hm
      exact (PyDict.get?_eq_none_iff _ _).1 hn hk
    · intro x
      simp [withBox, withHome, PyDict.mem_keys_set]
    · intro c hc
      rw [(C92_books c _).1, (C92_books c s).1]
      simp [withBox, withHome, hc]
    · intro c
      rw [(C92_books c _).2.1, (C92_books c s).2.1]
      by_cases hc : c = b
      · subst hc; simp [withBox, withHome]
      · simp [withBox, withHome, hc]
    · refine fork_run ?_
      pysteps [Sandbox.Agent.getHome, sm0_getattr, fs_home]
      simp [withBox, withHome, homeV]
      rfl

/-- **C92** Once `transportAgent` has returned, the sandbox the agent was in no longer lists it and the destination,
which is another one, does; everyone else is listed where they were. -/
theorem C92_moved (a b : Nat) (d : Ref) (s t : St Sim) (v : PV)
    (hr : run simLang2 Sandbox.Sandbox.transportAgent [boxV ⟨b, false⟩, agentV a, boxV d] s = (.ok v, t)) :
    d.box ≠ b ∧ (s.app.agents a).id ∈ (s.app.boxes b).agents.keys
    ∧ ∀ c, ∃ l : List String, run simLang1 Sandbox.Sandbox.getAgentIds [boxV ⟨c, false⟩] t = (.ok (viewV (l.map textV)), t)
      ∧ ((s.app.agents a).id ∈ l ↔ c = d.box ∨ (c ≠ b ∧ (s.app.agents a).id ∈ (s.app.boxes c).agents.keys))
      ∧ ∀ x, x ≠ (s.app.agents a).id → (x ∈ l ↔ x ∈ (s.app.boxes c).agents.keys) := by
  rcases d with ⟨d, p⟩
  rw [C92_transport] at hr
  unfold liftSm at hr
  have h0 : transportAgent b a ⟨d, p⟩ s.app = (if (s.app.boxes b).agents.mem (s.app.agents a).id ∧ (⟨d, p⟩ : Ref) ≠ ⟨b, false⟩ then
        (through ⟨d, p⟩ "addAgent" (addAgent d a) >>= fun _ => Sm.change fun t => { t with boxes := fun k =>
          if k = b then { t.boxes b with agents := (t.boxes b).agents.del (s.app.agents a).id } else t.boxes k })
      else Sm.raise .sandbox) s.app := rfl
  rw [h0] at hr
  by_cases hc : (s.app.boxes b).agents.mem (s.app.agents a).id ∧ (⟨d, p⟩ : Ref) ≠ ⟨b, false⟩
  · rw [if_pos hc] at hr
    have hb : ∀ (x : Sm Unit) (f : Sim → Sim) (w : Sim), (x >>= fun _ => Sm.change f) w
        = match x w with | (.ok _, t) => (.ok (), f t) | (.error e, t) => (.error e, t) := by
      intro x f w
      show Sm.bind x _ w = _
      unfold Sm.bind
      rcases x w with ⟨_ | _, _⟩ <;> rfl
    rw [hb] at hr
    rcases through_cases ⟨d, p⟩ "addAgent" (addAgent d a) s.app with ⟨_, h⟩ | ⟨_, e, h⟩
    · rw [h] at hr
      rcases addAgent_cases d a s.app with ⟨_, h⟩ | ⟨hf, h⟩
      · rw [h] at hr; simp at hr
      · rw [h] at hr
        have hdb : d ≠ b := by intro e; subst e; rw [hf] at hc; exact absurd hc.1 (by decide)
        have hk : ∀ c, (s.app.boxes c).agents.mem (s.app.agents a).id = true ↔ (s.app.agents a).id ∈ (s.app.boxes c).agents.keys := by
          intro c
          have := PyDict.get?_eq_none_iff (s.app.boxes c).agents (s.app.agents a).id
          unfold PyDict.mem
          cases hg : (s.app.boxes c).agents.get? (s.app.agents a).id with
          | none => simp [this.1 hg]
          | some _ => simp only [Option.isSome_some, true_iff]; by_contra hn; rw [this.2 hn] at hg; cases hg
        refine ⟨hdb, (hk b).1 hc.1, fun c => ⟨_, (C92_books c t).1, ?_⟩⟩
        have ht := (Prod.mk.inj hr).2
        subst ht
        by_cases hcb : c = b
        · subst hcb
          have hne : c ≠ d := fun e => hdb e.symm
          have hdel : ∀ (m : PyDict String Nat) (i x : String), x ∈ (m.del i).keys ↔ x ≠ i ∧ x ∈ m.keys := by
            intro m i x
            unfold PyDict.del PyDict.keys
            simp only [List.mem_map, List.mem_filter, decide_eq_true_eq]
            constructor
            · rintro ⟨q, ⟨h1, h2⟩, rfl⟩; exact ⟨h2, q, h1, rfl⟩
            · rintro ⟨h2, q, h1, rfl⟩; exact ⟨q, ⟨h1, h2⟩, rfl⟩
          simp only [if_true, hne, if_false, hdel]
          exact ⟨by simp, fun x hx => by simp [hx]⟩
        · by_cases hcd : c = d
          · subst hcd
            simp only [hcb, if_false, if_true, PyDict.mem_keys_set]
            exact ⟨by simp, fun x hx => by simp [hx]⟩
          · simp [hcb, hcd]
    · rw [h] at hr; simp at hr
  · rw [if_neg hc] at hr
    simp [Sm.raise] at hr

/-- An agent joins an empty sandbox, before and after wiring. -/
example (s : St Sim) (a b : Nat) (h : (s.app.boxes b).agents = []) :
    ∃ t, run simLang1 (addingFn s.app.secured) [boxV ⟨b, false⟩, agentV a] s = (.ok (.v .none), t)
      ∧ run simLang1 Sandbox.Sandbox.getAgentIds [boxV ⟨b, false⟩] t = (.ok (viewV [textV (s.app.agents a).id]), t) := by
  have h1 : run simLang1 (addingFn s.app.secured) [boxV ⟨b, false⟩, agentV a] s = liftSm (addAgent b a) (fun _ => .v .none) s := by
    cases hs : s.app.secured with
    | true => exact (C92_addAgent a b s).2 hs
    | false => exact (C92_addAgent a b s).1 hs
  rw [lift_add, h] at h1
  refine ⟨_, h1, ?_⟩
  rw [(C92_books b _).1]
  simp [withBox, withHome, PyDict.set, PyDict.keys]

/-- An agent moves from the sandbox it is alone in to an empty one, which then lists it. -/
example (s : St Sim) (a b d : Nat) (hd : d ≠ b) (hb : (s.app.boxes b).agents = [((s.app.agents a).id, a)]) (he : (s.app.boxes d).agents = []) :
    ∃ t, run simLang2 Sandbox.Sandbox.transportAgent [boxV ⟨b, false⟩, agentV a, boxV ⟨d, false⟩] s = (.ok (.v .none), t)
      ∧ ∃ l : List String, run simLang1 Sandbox.Sandbox.getAgentIds [boxV ⟨d, false⟩] t = (.ok (viewV (l.map textV)), t)
        ∧ (s.app.agents a).id ∈ l := by
  have hr : ∃ t, run simLang2 Sandbox.Sandbox.transportAgent [boxV ⟨b, false⟩, agentV a, boxV ⟨d, false⟩] s = (.ok (.v .none), t) := by
    rw [C92_transport]
    unfold liftSm transportAgent through addAgent
    simp [bind, Sm.bind, Sm.read, Sm.change, hb, he, hd, PyDict.mem, PyDict.get?]
  obtain ⟨t, ht⟩ := hr
  obtain ⟨l, hl, hm, _⟩ := (C92_moved a b ⟨d, false⟩ s t _ ht).2.2 d
  exact ⟨t, ht, l, hl, hm.2 (.inl rfl)⟩

end ZS.Props
