import Verif.Lemmas.Carry
import Verif.Props.Deploy

/-!
# C68 A whole configuration: nesting, redefinitions, conflicts, overrides
-/

namespace ZS.Props
open Spec
variable {A : Type}

/-! ## Reading and resolving -/

/-- The classes and modules a configuration is about are unregistered or have `Checker`s, and those it
declares on have dictionaries of their own. -/
def SiteReady (f : IdField) (evs : List Ev) (s : St A) : Prop :=
  ∀ i π d, Says f evs i π d → (Dicts s (about d) ∧ Apart s (about d)) ∧ ∀ u, LikeClass d u → Dicts s u

theorem read_emitted (f : IdField) (evs : List Ev) (h : Readable f evs) :
    ∃ st parts, readEvs f [⟨none, []⟩] evs = .ok (st, parts.flatten) ∧ Emitted f evs parts := by
  rcases read_all (reflects_start f) evs with ⟨st, parts, h1, _, h3, _⟩ | ⟨x, _, i, e, h2, h3, _⟩
  · obtain ⟨h4, h5⟩ := parts_at h3
    exact ⟨st, parts, h1, h4, fun i e he => by simpa using h5 i e he⟩
  · exact absurd (by simpa using h3) (h i e h2 x)

/-- What an action of the first round says. -/
theorem declare_says {f : IdField} {evs : List Ev} {parts : List (List FAction)} (h : Emitted f evs parts) (a : Action)
    (ha : .declare a ∈ (firstRound parts.flatten).map (·.call)) :
    ∃ i π d, Says f evs i π d ∧ (emitDirective d).2 = none ∧ a ∈ (emitDirective d).1 := by
  obtain ⟨b, hb, hc⟩ := List.mem_map.mp ha
  obtain ⟨i, e, own, he, ho, hbo⟩ := mem_firstRound h b hb
  cases ho with
  | permission => simp only [List.mem_singleton] at hbo; subst hbo; cases hc
  | policy => simp only [List.mem_singleton] at hbo; subst hbo; cases hc
  | directive hm hx =>
    obtain ⟨a', ha', rfl⟩ := List.mem_map.mp hbo
    simp only [declared, Call.declare.injEq] at hc
    subst hc
    exact ⟨i, _, _, ⟨e, he, hm, rfl⟩, hx, ha'⟩
  | _ => cases hbo

theorem first_noCheck {f : IdField} {evs : List Ev} {parts : List (List FAction)} (h : Emitted f evs parts) (id : String) :
    .check id ∉ (firstRound parts.flatten).map (·.call) := by
  intro hc
  obtain ⟨b, hb, hc⟩ := List.mem_map.mp hc
  obtain ⟨i, e, own, he, ho, hbo⟩ := mem_firstRound h b hb
  cases ho with
  | permission => simp only [List.mem_singleton] at hbo; subst hbo; cases hc
  | policy => simp only [List.mem_singleton] at hbo; subst hbo; cases hc
  | directive hm hx =>
    obtain ⟨a', ha', rfl⟩ := List.mem_map.mp hbo
    cases hc
  | _ => cases hbo

/-- Loading a configuration that can be read and has no conflicts. -/
theorem load_run (f : IdField) (evs : List Ev) (x : Site A) (hr : Readable f evs) (hs : Unambiguous f evs) (hh : Heap x.state)
    (hready : SiteReady f evs x.state) :
    ∃ parts x', Emitted f evs parts ∧ AfterCalls ((firstRound parts.flatten).map (·.call)) x x'
      ∧ ((∀ id, Needs f evs id → Registered x'.utilities id) → loadFile f evs x = (.ok (), x'))
      ∧ ((∃ id, Needs f evs id ∧ ¬ Registered x'.utilities id) → loadFile f evs x = (.err .valueError, x')) := by
  obtain ⟨st, parts, h1, h2⟩ := read_emitted f evs hr
  have hres := (emitted_resolve h2).1 hs
  obtain ⟨x', h3, h4⟩ := run_first ((firstRound parts.flatten).map (·.call)) x hh (fun a ha => by
    obtain ⟨i, π, d, hsay, hx, had⟩ := declare_says h2 a ha
    obtain ⟨t1, t2⟩ := actions_targets d hx a had
    obtain ⟨r1, r2⟩ := hready i π d hsay
    exact ⟨fun k hk => by rw [t1 k hk]; exact r1, fun k hk => r2 k (t2 k hk)⟩) (first_noCheck h2)
  have hload : loadFile f evs x = runCalls x' ((secondRound parts.flatten).map (·.call)) := by
    unfold loadFile
    rw [h1]
    simp only [hres, List.map_append]
    exact runCalls_append x x' _ _ h3
  have hsecond := run_second ((secondRound parts.flatten).map (·.call)) x' (fun c hc => by
    obtain ⟨b, hb, rfl⟩ := List.mem_map.mp hc
    obtain ⟨i, e, raw, _, _, _, rfl⟩ := (mem_secondRound h2 b).mp hb
    exact ⟨_, rfl⟩)
  have hneeds : ∀ id, .check id ∈ (secondRound parts.flatten).map (·.call) ↔ Needs f evs id := by
    intro id
    constructor
    · intro hc
      obtain ⟨b, hb, hcall⟩ := List.mem_map.mp hc
      obtain ⟨i, e, raw, he, hg, hne, rfl⟩ := (mem_secondRound h2 b).mp hb
      cases hcall
      exact ⟨e, List.mem_of_getElem? he, raw, hg, rfl, hne⟩
    · rintro ⟨e, he, raw, hg, rfl, hne⟩
      obtain ⟨i, hi⟩ := List.mem_iff_getElem?.mp he
      exact List.mem_map.mpr ⟨_, (mem_secondRound h2 _).mpr ⟨i, e, raw, hi, hg, hne, rfl⟩, rfl⟩
  refine ⟨parts, x', h2, h4, fun h => ?_, fun ⟨id, h, h'⟩ => ?_⟩
  · rw [hload]; exact hsecond.1 fun id hid => h id ((hneeds id).mp hid)
  · rw [hload]; exact hsecond.2 ⟨id, (hneeds id).mpr h, h'⟩

/-- The configuration has been carried out, whether or not all permissions turned out to be defined. -/
def CarriedOut (f : IdField) (evs : List Ev) (x x' : Site A) : Prop :=
  loadFile f evs x = (.ok (), x') ∨ loadFile f evs x = (.err .valueError, x')

theorem load_after {f : IdField} {evs : List Ev} {x x' : Site A} (hr : Readable f evs) (hs : Unambiguous f evs)
    (hh : Heap x.state) (hready : SiteReady f evs x.state) (hc : CarriedOut f evs x x') :
    ∃ parts, Emitted f evs parts ∧ AfterCalls ((firstRound parts.flatten).map (·.call)) x x' := by
  obtain ⟨parts, x1, h1, h2, h3, h4⟩ := load_run f evs x hr hs hh hready
  have : loadFile f evs x = (.ok (), x1) ∨ loadFile f evs x = (.err .valueError, x1) := by
    by_cases hall : ∀ id, Needs f evs id → Registered x1.utilities id
    · exact .inl (h3 hall)
    · right
      refine h4 ?_
      simpa using hall
  have hx : x' = x1 := by
    rcases hc with hc | hc <;> rcases this with ht | ht <;> rw [hc] at ht <;> cases ht <;> rfl
  subst hx
  exact ⟨parts, h1, h2⟩

/-! ## The claims -/

/-- **C68** The first event that cannot be read ends everything: its exception comes out and nothing has
been carried out. -/
theorem C68_wrong (f : IdField) (evs : List Ev) (x : Site A) (i : Nat) (e : Ev) (exn : Exn) (he : evs[i]? = some e)
    (hw : Wrong f (evs.take i) e exn) (hb : ∀ j e', j < i → evs[j]? = some e' → ∀ exn', ¬ Wrong f (evs.take j) e' exn') :
    loadFile f evs x = (.err exn, x) := by
  rcases read_all (reflects_start f) evs with ⟨st, parts, _, _, _, h4⟩ | ⟨y, h1, j, e', h2, h3, h4⟩
  · exact absurd (by simpa using hw) (h4 i e he exn)
  · simp only [List.nil_append] at h3 h4
    have hij : i = j := by
      rcases Nat.lt_trichotomy i j with h | h | h
      · exact absurd hw (h4 i e h he exn)
      · exact h
      · exact absurd h3 (hb j e' h h2 y)
    subst hij
    rw [he] at h2; cases h2
    have := wrong_functional hw h3
    subst this
    unfold loadFile
    rw [h1]

/-- **C68** A configuration in which something is determined without one outermost event determining it
once is refused, and nothing of it is carried out. -/
theorem C68_conflict (f : IdField) (evs : List Ev) (x : Site A) (hr : Readable f evs) (hs : ¬ Unambiguous f evs) :
    loadFile f evs x = (.err .configurationError, x) := by
  obtain ⟨st, parts, h1, h2⟩ := read_emitted f evs hr
  unfold loadFile
  rw [h1]
  simp only [(emitted_resolve h2).2 hs]

/-- **C68** Any other configuration is carried out: completely, and then the permissions it mentions are
looked up; it ends without exception exactly if all of them are registered, ids other than
zope.Public as written — not what they have been redefined to. -/
theorem C68_carried_out (f : IdField) (evs : List Ev) (x : Site A) (hr : Readable f evs) (hs : Unambiguous f evs)
    (hh : Heap x.state) (hready : SiteReady f evs x.state) :
    ∃ x', CarriedOut f evs x x'
      ∧ (loadFile f evs x = (.ok (), x') ↔ ∀ id, Needs f evs id → Registered x'.utilities id) := by
  obtain ⟨parts, x1, h1, h2, h3, h4⟩ := load_run f evs x hr hs hh hready
  by_cases hall : ∀ id, Needs f evs id → Registered x1.utilities id
  · exact ⟨x1, .inl (h3 hall), fun _ => hall, fun _ => h3 hall⟩
  · have he : ∃ id, Needs f evs id ∧ ¬ Registered x1.utilities id := by simpa using hall
    refine ⟨x1, .inr (h4 he), fun h => ?_, fun h => absurd h hall⟩
    rw [h4 he] at h; cases h

/-- **C68** Registered permissions afterwards are those registered before and those the configuration
defines. -/
theorem C68_permissions (f : IdField) (evs : List Ev) (x x' : Site A) (hr : Readable f evs) (hs : Unambiguous f evs)
    (hh : Heap x.state) (hready : SiteReady f evs x.state) (hc : CarriedOut f evs x x') (u : String) :
    Registered x'.utilities u ↔ Registered x.utilities u ∨ ∃ raw, .permission raw ∈ evs ∧ f.strip raw = u := by
  obtain ⟨parts, h1, h2⟩ := load_after hr hs hh hready hc
  rw [h2.utilities u]
  refine or_congr Iff.rfl ?_
  constructor
  · intro hd
    obtain ⟨b, hb, hcall⟩ := List.mem_map.mp hd
    obtain ⟨i, e, own, he, ho, hbo⟩ := mem_firstRound h1 b hb
    cases ho with
    | permission =>
      simp only [List.mem_singleton] at hbo; subst hbo
      cases hcall
      exact ⟨_, List.mem_of_getElem? he, rfl⟩
    | policy => simp only [List.mem_singleton] at hbo; subst hbo; cases hcall
    | directive hm hx =>
      obtain ⟨a', ha', rfl⟩ := List.mem_map.mp hbo
      cases hcall
    | _ => cases hbo
  · rintro ⟨raw, hm, rfl⟩
    obtain ⟨i, hi⟩ := hs (.permission (f.strip raw)) ⟨_, hm, by simp [times]⟩
    obtain ⟨q1, a, q2, hq, hal⟩ := outermost_alone h1 hi
    obtain ⟨e, own, he, ho, hl⟩ := h1.event hq
    have ha : a ∈ checksOf f (includePath (evs.take i)) e ++ own := by rw [← hl]; simp
    have ha2 := List.mem_append.mp ha
    clear ha
    rcases ha2 with ha | ha
    · obtain ⟨_, _, _, rfl⟩ := mem_checks ha
      cases hal.2.1
    · obtain ⟨P', S', h5, _⟩ := alone_firstRound hal (own_path ho a ha).2
      refine List.mem_map.mpr ⟨a, by rw [h5]; simp, ?_⟩
      have hd := hal.2.1
      cases ho with
      | permission =>
        simp only [List.mem_singleton] at ha; subst ha
        simp only [discS, Option.some.injEq, Disc.utility.injEq] at hd
        rw [hd]
      | policy => simp only [List.mem_singleton] at ha; subst ha; cases hd
      | directive hm' hx =>
        obtain ⟨a', ha', rfl⟩ := List.mem_map.mp ha
        cases a' <;> cases hd
      | _ => cases ha

/-- **C68** The security policy afterwards is that of the outermost `securityPolicy`, or as before when
there is none. -/
theorem C68_policy (f : IdField) (evs : List Ev) (x x' : Site A) (hr : Readable f evs) (hs : Unambiguous f evs)
    (hh : Heap x.state) (hready : SiteReady f evs x.state) (hc : CarriedOut f evs x x') :
    (∀ i q, evs[i]? = some (.policy q) → Outermost f evs i .policy → x'.state.policy = q)
    ∧ ((∀ q, .policy q ∉ evs) → x'.state.policy = x.state.policy) := by
  obtain ⟨parts, h1, h2⟩ := load_after hr hs hh hready hc
  have hpol : ∀ (l : List FAction), (∀ c ∈ l, c ∈ firstRound parts.flatten) → (∀ c ∈ l, c.disc ≠ some .defaultPolicy) →
      ∀ q, .policy q ∉ l.map (·.call) := by
    intro l hl hn q hq
    obtain ⟨b, hb, hcall⟩ := List.mem_map.mp hq
    obtain ⟨j, e, own, he, ho, hbo⟩ := mem_firstRound h1 b (hl b hb)
    cases ho with
    | permission => simp only [List.mem_singleton] at hbo; subst hbo; cases hcall
    | policy => simp only [List.mem_singleton] at hbo; subst hbo; exact hn _ hb rfl
    | directive hm hx =>
      obtain ⟨a', ha', rfl⟩ := List.mem_map.mp hbo
      cases hcall
    | _ => cases hbo
  refine ⟨fun i q hi ho => ?_, fun hnone => ?_⟩
  · obtain ⟨q1, a, q2, hq, hal⟩ := outermost_alone h1 ho
    obtain ⟨e, own, he, hown, hl⟩ := h1.event hq
    rw [hi] at he; cases he
    have ha : a ∈ checksOf f (includePath (evs.take i)) (.policy q) ++ own := by rw [← hl]; simp
    have ha : a = ⟨some .defaultPolicy, 0, includePath (evs.take i), .policy q⟩ := by
      cases hown with
      | policy => simpa [checksOf, givens] using ha
      | directive hm => cases hm
    obtain ⟨P', S', h5, _, _, h6⟩ := alone_firstRound hal (by rw [ha])
    rw [h2.policy, h5, List.map_append, List.map_cons, policyAfter_append, ha]
    exact policyAfter_none _ _ (hpol S' (fun c hc => by rw [h5]; simp [hc]) (fun c hc => h6 c (.inr hc)))
  · rw [h2.policy]
    refine policyAfter_none _ _ (hpol _ (fun c hc => hc) fun c hc hd => ?_)
    obtain ⟨j, e, own, he, ho, hbo⟩ := mem_firstRound h1 c hc
    cases ho with
    | permission => simp only [List.mem_singleton] at hbo; subst hbo; cases hd
    | policy => exact hnone _ (List.mem_of_getElem? he)
    | directive hm hx =>
      obtain ⟨a', ha', rfl⟩ := List.mem_map.mp hbo
      cases a' <;> cases hd
    | _ => cases hbo

/-! ## What is required -/

/-- The action does not touch the requirement. -/
def Leaves1 (k : Key) (w : Bool) (n : Name) : Action → Prop
  | .mimic k' _ => k' ≠ k
  | .name k' n' _ => ¬ (k' = k ∧ w = false ∧ n' = n)
  | .setAttr k' n' _ => ¬ (k' = k ∧ w = true ∧ n' = n)
  | _ => True

theorem actStores_leaves {k : Key} {w : Bool} {n : Name} (l : List Action) (h : ∀ a ∈ l, Leaves1 k w n a) (σ : Store) :
    actStores l σ k w n = σ k w n := by
  induction l generalizing σ with
  | nil => rfl
  | cons a r ih =>
    have ih := ih (fun b hb => h b (by simp [hb])) (actStore a σ)
    show actStores r (actStore a σ) k w n = _
    rw [ih]
    have ha := h a (by simp)
    cases a with
    | mimic k' kl => exact if_neg (Ne.symm ha)
    | name k' n' p =>
      exact if_neg (fun hh => ha ⟨hh.1, hh.2.1.symm, hh.2.2⟩)
    | setAttr k' n' p => exact if_neg (fun hh => ha ⟨hh.1, hh.2.1.symm, hh.2.2⟩)
    | classImplements => rfl
    | provideInterface => rfl

theorem leaves_of_disc {k : Key} {w : Bool} {n : Name} {a : Action} (hd : discOf a ≠ some (discS (.requirement k w n)))
    (hm : ∀ kl, a ≠ .mimic k kl) : Leaves1 k w n a := by
  cases a with
  | mimic k' kl => intro h; subst h; exact hm kl rfl
  | name k' n' p => rintro ⟨rfl, rfl, rfl⟩; exact hd rfl
  | setAttr k' n' p => rintro ⟨rfl, rfl, rfl⟩; exact hd rfl
  | classImplements => trivial
  | provideInterface => trivial

theorem mimic_says {d : Directive} (hx : (emitDirective d).2 = none) {k kl : Key} (h : .mimic k kl ∈ (emitDirective d).1) :
    about d = k ∧ LikeClass d kl := by
  obtain ⟨t1, t2⟩ := actions_targets d hx _ h
  exact ⟨(t1 k rfl).symm, t2 kl rfl⟩

theorem says_unique {f : IdField} {evs : List Ev} {i : Nat} {π π' : List String} {d d' : Directive}
    (h : Says f evs i π d) (h' : Says f evs i π' d') : d = d' ∧ π = π' := by
  obtain ⟨e, h1, h2, h3⟩ := h
  obtain ⟨e', h1', h2', h3'⟩ := h'
  rw [h1] at h1'; cases h1'
  exact ⟨meant_functional h2 h2', h3.trans h3'.symm⟩

/-- What the store holds for what an outermost event declares. -/
theorem outermost_stored {f : IdField} {evs : List Ev} {x x' : Site A} {parts : List (List FAction)}
    (h1 : Emitted f evs parts) (h2 : AfterCalls ((firstRound parts.flatten).map (·.call)) x x') {i : Nat} {π : List String}
    {d : Directive} {w : Bool} {n : Name} {p : Val} (hsay : Says f evs i π d) (hd : Declares d w n p)
    (ho : Outermost f evs i (.requirement (about d) w n))
    (hlike : ∀ j π' d' u, Says f evs j π' d' → about d' = about d → LikeClass d' u → j ≤ i) :
    stored w x'.state (about d) n = some (translate p) := by
  obtain ⟨q1, a, q2, hq, hal⟩ := outermost_alone h1 ho
  obtain ⟨e, own, he, hown, hl⟩ := h1.event hq
  obtain ⟨e', he', hm, rfl⟩ := hsay
  rw [he] at he'; cases he'
  have hdir : (emitDirective d).2 = none ∧ own = (emitDirective d).1.map (declared (includePath (evs.take i))) := by
    cases hown with
    | directive hm' hx => cases meant_functional hm hm'; exact ⟨hx, rfl⟩
    | _ => cases hm
  obtain ⟨hx, rfl⟩ := hdir
  obtain ⟨p0, l0, e1, e2, e3, e4⟩ := emit_actions d hx
  -- the action is one of the plain ones
  have hpre : ∀ c, c ∈ checksOf f (includePath (evs.take i)) e
      ++ (mimicActions (about d) (likeOf d)).map (declared (includePath (evs.take i))) → c.disc = none := by
    intro c hc
    rcases List.mem_append.mp hc with hc | hc
    · obtain ⟨_, _, _, rfl⟩ := mem_checks hc; rfl
    · obtain ⟨b, hb, rfl⟩ := List.mem_map.mp hc
      cases hlk : likeOf d with
      | none => rw [hlk] at hb; cases hb
      | some u =>
        rw [hlk] at hb
        simp only [mimicActions, List.mem_singleton] at hb
        subst hb; rfl
  rw [e1, List.map_append, ← List.append_assoc] at hl
  have hsplit : ∃ y, l0.map (declared (includePath (evs.take i))) = y ++ a :: q2 := by
    rcases List.append_eq_append_iff.mp hl with ⟨y, hy1, hy2⟩ | ⟨y, hy1, hy2⟩
    · cases y with
      | nil => exact ⟨[], by simpa using hy2.symm⟩
      | cons b y =>
        simp only [List.cons_append, List.cons.injEq] at hy2
        have : a.disc = none := hpre a (by rw [hy1, hy2.1]; simp)
        rw [hal.2.1] at this; cases this
    · exact ⟨y, hy2⟩
  obtain ⟨y, hy⟩ := hsplit
  have hal0 : a ∈ l0.map (declared (includePath (evs.take i))) := by rw [hy]; simp
  obtain ⟨act, hact, rfl⟩ := List.mem_map.mp hal0
  have hq2 : ∀ c ∈ q2, ∃ b ∈ l0, c = declared (includePath (evs.take i)) b := by
    intro c hc
    have : c ∈ l0.map (declared (includePath (evs.take i))) := by rw [hy]; simp [hc]
    obtain ⟨b, hb, rfl⟩ := List.mem_map.mp this
    exact ⟨b, hb, rfl⟩
  obtain ⟨P', S', h5, _, hS, h6⟩ := alone_firstRound hal rfl
  have hst : stored w x'.state (about d) n
      = actStores (declares ((firstRound parts.flatten).map (·.call))) (storeOf x.state) (about d) w n := by
    rw [← h2.store]; rfl
  rw [hst, h5, List.map_append, List.map_cons, declares_append, actStores_append]
  show actStores (act :: declares (S'.map (·.call))) _ (about d) w n = _
  show actStores (declares (S'.map (·.call))) (actStore act _) (about d) w n = _
  rw [actStores_leaves]
  · have hplain := e2 act hact
    have hdisc := hal.2.1
    simp only [declared] at hdisc
    rw [e4 w n p hd]
    cases act with
    | mimic => cases hdisc
    | name k' n' p' =>
      cases w with
      | true => simp [discOf, discS] at hdisc
      | false =>
        simp only [discOf, discS, Option.some.injEq, Disc.protectName.injEq] at hdisc
        obtain ⟨rfl, rfl⟩ := hdisc
        rw [hplain.2]
        exact if_pos ⟨rfl, rfl, rfl⟩
    | setAttr k' n' p' =>
      cases w with
      | false => simp [discOf, discS] at hdisc
      | true =>
        simp only [discOf, discS, Option.some.injEq, Disc.protectSetAttribute.injEq] at hdisc
        obtain ⟨rfl, rfl⟩ := hdisc
        rw [hplain.2]
        exact if_pos ⟨rfl, rfl, rfl⟩
    | classImplements => cases hdisc
    | provideInterface => cases hdisc
  · intro b hb
    obtain ⟨c, hcS, hcall⟩ := List.mem_map.mp ((mem_declares _ b).mp hb)
    have hcf : c ∈ firstRound parts.flatten := by rw [h5]; simp [hcS]
    obtain ⟨j0, e0, own0, he0, ho0, hc0⟩ := mem_firstRound h1 c hcf
    have hcd : c = declared c.path b := by
      cases ho0 with
      | permission => simp only [List.mem_singleton] at hc0; subst hc0; cases hcall
      | policy => simp only [List.mem_singleton] at hc0; subst hc0; cases hcall
      | directive hm' hx' =>
        obtain ⟨b', _, rfl⟩ := List.mem_map.mp hc0
        simp only [declared, Call.declare.injEq] at hcall
        subst hcall; rfl
      | _ => cases hc0
    refine leaves_of_disc (fun hdb => h6 c (.inr hcS) (by rw [hcd]; exact hdb)) ?_
    rintro kl rfl
    rcases List.mem_append.mp (hS c hcS) with hcq | hcq
    · obtain ⟨b', hb', hc'⟩ := hq2 c hcq
      rw [hcd] at hc'
      simp only [declared, FAction.mk.injEq, Call.declare.injEq, true_and] at hc'
      have := e2 b' hb'
      rw [← hc'.2.2] at this
      exact this
    · obtain ⟨j, l, hj, hlj, hcl⟩ := mem_drop_at hcq
      obtain ⟨e', own', he', ho', rfl⟩ := h1.event hlj
      have hcl2 := List.mem_append.mp hcl
      clear hcl
      rcases hcl2 with hcl | hcl
      · obtain ⟨_, _, _, hh⟩ := mem_checks hcl
        rw [hh] at hcall; cases hcall
      · cases ho' with
        | permission => simp only [List.mem_singleton] at hcl; subst hcl; cases hcall
        | policy => simp only [List.mem_singleton] at hcl; subst hcl; cases hcall
        | directive hm' hx' =>
          obtain ⟨b', hb', rfl⟩ := List.mem_map.mp hcl
          simp only [declared, Call.declare.injEq] at hcall
          subst hcall
          obtain ⟨hab, hlk⟩ := mimic_says hx' hb'
          have := hlike j _ _ kl ⟨e', he', hm', rfl⟩ hab hlk
          omega
        | _ => cases hcl

/-- No directive that is meant and can be read declares without a permission. -/
theorem declared_ne_none {f : IdField} {evs : List Ev} (hr : Readable f evs) {i : Nat} {π : List String} {d : Directive}
    {w : Bool} {n : Name} {p : Val} (hsay : Says f evs i π d) (hd : Declares d w n p) : p ≠ .none := by
  intro hp
  obtain ⟨e, he, hm, _⟩ := hsay
  have hraise : Raises d .configurationError := by
    cases hd with
    | attributes h => exact .noPermission (fun hn => by rw [hn.1] at h; cases h) (.inl hp)
    | interface h _ => exact .noPermission (fun hn => by rw [hn.2.1] at h; cases h) (.inl hp)
    | setAttributes h => exact .noPermission (fun hn => by rw [hn.2.2.1] at h; cases h) (.inl hp)
    | setSchema h _ => exact .noPermission (fun hn => by rw [hn.2.2.2] at h; cases h) (.inl hp)
    | modAttributes => subst hp; cases hm
    | modInterface => subst hp; cases hm
    | _ => cases hp
  by_cases hv : ∀ raw, Given e raw → f.valid (f.strip raw) = true
  · exact hr i e he _ (.directive hv hm hraise)
  · have : ∃ raw, Given e raw ∧ ¬ f.valid (f.strip raw) = true := by simpa using hv
    obtain ⟨raw, hg, hn⟩ := this
    exact hr i e he _ (.given hg (by simpa using hn))

/-- **C68** What a class or module requires for reading or writing a name is what the outermost
directive declares — whatever the files it includes declare, before or after, and with the permission
id standing for what it stands for at that point — provided no later directive makes the class like
another one. -/
theorem C68_declared (f : IdField) (evs : List Ev) (x x' : Site A) (hr : Readable f evs) (hs : Unambiguous f evs)
    (hh : Heap x.state) (hready : SiteReady f evs x.state) (hc : CarriedOut f evs x x') (i : Nat) (π : List String)
    (d : Directive) (w : Bool) (n : Name) (p : Val) (hsay : Says f evs i π d) (hd : Declares d w n p)
    (ho : Outermost f evs i (.requirement (about d) w n))
    (hlike : ∀ j π' d' u, Says f evs j π' d' → about d' = about d → LikeClass d' u → j ≤ i) :
    Means p (required w x'.state (about d) n) := by
  obtain ⟨parts, h1, h2⟩ := load_after hr hs hh hready hc
  rw [required_eq, outermost_stored h1 h2 hsay hd ho hlike, means_iff]

/-! ## One directive after the other -/

/-- In a configuration without conflicts the winning action is that of the outermost event. -/
theorem wins_outermost {f : IdField} {evs : List Ev} {parts : List (List FAction)} (h : Emitted f evs parts)
    (hs : Unambiguous f evs) {i : Nat} {l : List FAction} (hi : parts[i]? = some l) {b : FAction} (hb : b ∈ l) {x : Subject}
    (hd : b.disc = some (discS x)) : wins parts.flatten b = true ↔ Outermost f evs i x := by
  obtain ⟨e, own, he, ho, hl⟩ := h.event hi
  obtain ⟨hcount, hpath⟩ := h.count hi he x
  have hpos : 0 < times f e x := by rw [← hcount]; exact having_pos.mpr ⟨b, hb, hd⟩
  constructor
  · intro hw
    obtain ⟨j, hj⟩ := hs x ⟨e, List.mem_of_getElem? he, hpos⟩
    by_cases hij : j = i
    · exact hij ▸ hj
    · obtain ⟨q1, a, q2, hq, hal⟩ := outermost_alone h hj
      have : b ∈ (parts.take j).flatten ++ q1 ∨ b ∈ q2 ++ (parts.drop (j + 1)).flatten := by
        rcases Nat.lt_or_gt_of_ne hij with hlt | hgt
        · right
          refine List.mem_append_right _ (List.mem_flatten.mpr ⟨l, List.mem_of_getElem? (i := i - (j + 1)) ?_, hb⟩)
          rw [List.getElem?_drop, show j + 1 + (i - (j + 1)) = i by omega]; exact hi
        · left
          refine List.mem_append_left _ (List.mem_flatten.mpr ⟨l, List.mem_of_getElem? (i := i) ?_, hb⟩)
          rw [List.getElem?_take, if_pos hgt]; exact hi
      rw [(alone_wins hal).2 b this hd] at hw; cases hw
  · intro hout
    obtain ⟨q1, a, q2, hq, hal⟩ := outermost_alone h hout
    rw [hi] at hq; cases hq
    have hba : b = a := by
      rcases List.mem_append.mp hb with hb' | hb'
      · have := hal.2.2 b (.inl (by simp [hb'])) hd
        rw [hpath a (by simp) hal.2.1, hpath b hb hd] at this
        exact absurd rfl this.2
      · rcases List.mem_cons.mp hb' with hb' | hb'
        · exact hb'
        · have := hal.2.2 b (.inr (by simp [hb'])) hd
          rw [hpath a (by simp) hal.2.1, hpath b hb hd] at this
          exact absurd rfl this.2
    rw [hba]; exact (alone_wins hal).1

theorem declares_declared (π : List String) (l : List Action) : declares ((l.map (declared π)).map (·.call)) = l := by
  induction l with
  | nil => rfl
  | cons a r ih =>
    show a :: declares ((r.map (declared π)).map (·.call)) = _
    rw [ih]

theorem firstRound_checks {f : IdField} {π : List String} {e : Ev} (L : List FAction) :
    (checksOf f π e).filter (fun a => wins L a && a.order == 0) = [] := by
  rw [List.filter_eq_nil_iff]
  intro a ha
  obtain ⟨_, _, _, rfl⟩ := mem_checks ha
  simp

theorem said_disc {a : Action} {k : Key} {p : Val} (hp : PlainAct k p a) {w : Bool} {n : Name} :
    said a = some (w, n) ↔ discOf a = some (discS (.requirement k w n)) := by
  cases a with
  | mimic => exact absurd hp id
  | name k' n' p' => obtain ⟨rfl, _⟩ := hp; cases w <;> simp [said, discOf, discS]
  | setAttr k' n' p' => obtain ⟨rfl, _⟩ := hp; cases w <;> simp [said, discOf, discS]
  | classImplements => simp [said, discOf]
  | provideInterface => simp [said, discOf]

/-- The effect of the actions of one directive that win. -/
theorem part_effect {f : IdField} {evs : List Ev} {parts : List (List FAction)} (h : Emitted f evs parts)
    (hs : Unambiguous f evs) {i : Nat} {l : List FAction} (hi : parts[i]? = some l) {e : Ev} (he : evs[i]? = some e) {d : Directive}
    (hm : Meant f (evs.take i) e d) (σ : Store) :
    EffectOf d (fun w n => Outermost f evs i (.requirement (about d) w n)) σ
      (actStores (declares ((l.filter fun a => wins parts.flatten a && a.order == 0).map (·.call))) σ) := by
  obtain ⟨e', own, he', hown, hl⟩ := h.event hi
  rw [he] at he'; cases he'
  have hdir : (emitDirective d).2 = none ∧ own = (emitDirective d).1.map (declared (includePath (evs.take i))) := by
    cases hown with
    | directive hm' hx => cases meant_functional hm hm'; exact ⟨hx, rfl⟩
    | _ => cases hm
  obtain ⟨hx, rfl⟩ := hdir
  obtain ⟨p, l0, h1, h2, h3, h4⟩ := emit_actions d hx
  have hfilter : declares ((l.filter fun a => wins parts.flatten a && a.order == 0).map (·.call))
      = mimicActions (about d) (likeOf d)
        ++ l0.filter fun a => wins parts.flatten (declared (includePath (evs.take i)) a) := by
    rw [hl, List.filter_append, firstRound_checks, List.nil_append, List.filter_map, declares_declared, h1,
      List.filter_append]
    have e1 : (mimicActions (about d) (likeOf d)).filter
        ((fun a => wins parts.flatten a && a.order == 0) ∘ declared (includePath (evs.take i)))
          = mimicActions (about d) (likeOf d) := by
      rw [List.filter_eq_self]
      intro a ha
      cases hlk : likeOf d with
      | none => rw [hlk] at ha; cases ha
      | some u =>
        rw [hlk] at ha
        simp only [mimicActions, List.mem_singleton] at ha
        subst ha
        have : wins parts.flatten (declared (includePath (evs.take i)) (.mimic (about d) u)) = true :=
          (wins_iff _ _).mpr (.inl rfl)
        simp only [Function.comp, this]
        rfl
    rw [e1]
    congr 1
    refine List.filter_congr fun a _ => ?_
    simp [declared]
  rw [hfilter, actStores_append]
  have hmim : (∀ k, k ≠ about d → actStores (mimicActions (about d) (likeOf d)) σ k = σ k)
      ∧ (∀ w n, actStores (mimicActions (about d) (likeOf d)) σ (about d) w n
        = match likeOf d with
          | none => σ (about d) w n
          | some u => (σ u w n).or (σ (about d) w n)) := by
    cases likeOf d with
    | none => exact ⟨fun _ _ => rfl, fun _ _ => rfl⟩
    | some u =>
      refine ⟨fun k hk => ?_, fun w n => ?_⟩
      · funext w n
        simp [actStores, mimicActions, actStore, hk]
      · simp [actStores, mimicActions, actStore]
  generalize actStores (mimicActions (about d) (likeOf d)) σ = σ1 at hmim
  have hsaid : ∀ w n, Said (l0.filter fun a => wins parts.flatten (declared (includePath (evs.take i)) a)) w n
      ↔ (∃ q, Declares d w n q) ∧ Outermost f evs i (.requirement (about d) w n) := by
    intro w n
    have hw : ∀ a ∈ l0, said a = some (w, n) → (wins parts.flatten (declared (includePath (evs.take i)) a) = true
        ↔ Outermost f evs i (.requirement (about d) w n)) := by
      intro a ha hsa
      refine wins_outermost h hs hi (b := declared _ a) ?_ ((said_disc (h2 a ha)).mp hsa)
      rw [hl, h1]
      exact List.mem_append_right _ (List.mem_map.mpr ⟨a, List.mem_append_right _ ha, rfl⟩)
    constructor
    · rintro ⟨a, ha, hsa⟩
      obtain ⟨ha, hwin⟩ := List.mem_filter.mp ha
      exact ⟨(h3 w n).mp ⟨a, ha, hsa⟩, (hw a ha hsa).mp hwin⟩
    · rintro ⟨hq, hout⟩
      obtain ⟨a, ha, hsa⟩ := (h3 w n).mpr hq
      exact ⟨a, List.mem_filter.mpr ⟨ha, (hw a ha hsa).mpr hout⟩, hsa⟩
  obtain ⟨f1, f2⟩ := plainAct_fold (l0.filter fun a => wins parts.flatten (declared (includePath (evs.take i)) a)) (about d) p
    (fun a ha => h2 a (List.mem_filter.mp ha).1) σ1
  have notSaid : ∀ w n, (∀ q, Declares d w n q → ¬ Outermost f evs i (.requirement (about d) w n)) →
      actStores (l0.filter fun a => wins parts.flatten (declared (includePath (evs.take i)) a)) σ1 (about d) w n
        = σ1 (about d) w n := by
    intro w n hn
    apply (f2 w n).2
    intro hsa
    obtain ⟨⟨q, hq⟩, hout⟩ := (hsaid w n).mp hsa
    exact hn q hq hout
  refine ⟨fun k hk => (f1 k hk).trans (hmim.1 k hk), ?_, ?_, ?_, ?_⟩
  · intro w n q hq hout
    have hqn : q ≠ .none := by
      rintro rfl
      have hc : ∃ e, Raises d e := by
        generalize hz : Val.none = z at hq
        cases hq with
        | attributes hh => exact ⟨_, .noPermission (fun hn => by rw [hn.1] at hh; cases hh) (.inl hz.symm)⟩
        | interface hh _ => exact ⟨_, .noPermission (fun hn => by rw [hn.2.1] at hh; cases hh) (.inl hz.symm)⟩
        | setAttributes hh => exact ⟨_, .noPermission (fun hn => by rw [hn.2.2.1] at hh; cases hh) (.inl hz.symm)⟩
        | setSchema hh _ => exact ⟨_, .noPermission (fun hn => by rw [hn.2.2.2] at hh; cases hh) (.inl hz.symm)⟩
        | modAttributes => subst hz; cases hm
        | modInterface => subst hz; cases hm
        | _ => cases hz
      obtain ⟨ex, hc⟩ := hc
      have := (emitDirective_raises d ex).mpr hc
      rw [hx] at this; cases this
    rw [means_stored hqn, (f2 w n).1 ((hsaid w n).mpr ⟨⟨q, hq⟩, hout⟩), h4 w n q hq]
  · intro hno w n hn
    rw [notSaid w n hn, hmim.2 w n]
    cases hlk : likeOf d with
    | none => rfl
    | some u => exact absurd ((likeOf_iff d u).mpr hlk) (hno u)
  · intro u hu w n q hn hq
    rw [notSaid w n hn, hmim.2 w n, (likeOf_iff d u).mp hu]
    simp [hq]
  · intro u hu w n hn hq
    rw [notSaid w n hn, hmim.2 w n, (likeOf_iff d u).mp hu]
    simp [hq]

theorem effects_from {f : IdField} {evs : List Ev} {parts : List (List FAction)} (h : Emitted f evs parts)
    (hs : Unambiguous f evs) (k : Nat) : ∀ (i : Nat) (σ : Store), evs.length - i = k →
    EffectsFrom f evs i σ
      (actStores (declares (((parts.drop i).flatten.filter fun a => wins parts.flatten a && a.order == 0).map (·.call))) σ) := by
  induction k with
  | zero =>
    intro i σ hk
    have hlen : parts.length ≤ i := by rw [h.length]; omega
    rw [List.drop_of_length_le hlen]
    exact .done (List.getElem?_eq_none (by omega))
  | succ k ih =>
    intro i σ hk
    have hlt : i < evs.length := by omega
    have hlt' : i < parts.length := by rw [h.length]; exact hlt
    have he : evs[i]? = some evs[i] := List.getElem?_eq_getElem hlt
    have hi : parts[i]? = some parts[i] := List.getElem?_eq_getElem hlt'
    rw [List.drop_eq_getElem_cons hlt', List.flatten_cons, List.filter_append, List.map_append, declares_append,
      actStores_append]
    have ih := fun σ => ih (i + 1) σ (by omega)
    by_cases hm : ∃ d, Meant f (evs.take i) evs[i] d
    · obtain ⟨d, hm⟩ := hm
      exact .directive ⟨_, he, hm, rfl⟩ (part_effect h hs hi he hm σ) (ih _)
    · refine .other he ?_ ?_
      · rintro π d ⟨e, he', hm', _⟩
        rw [he] at he'; cases he'
        exact hm ⟨d, hm'⟩
      · have hnone : declares ((parts[i].filter fun a => wins parts.flatten a && a.order == 0).map (·.call)) = [] := by
          rw [List.eq_nil_iff_forall_not_mem]
          intro b hb
          obtain ⟨c, hc, hcall⟩ := List.mem_map.mp ((mem_declares _ b).mp hb)
          obtain ⟨hcl, _⟩ := List.mem_filter.mp hc
          obtain ⟨e, own, he', ho, hl⟩ := h.event hi
          rw [he] at he'; cases he'
          rw [hl] at hcl
          have hcl2 := List.mem_append.mp hcl
          clear hcl hl
          rcases hcl2 with hcl | hcl
          · obtain ⟨_, _, _, rfl⟩ := mem_checks hcl
            cases hcall
          · generalize evs[i] = ev at *
            cases ho with
            | permission => simp only [List.mem_singleton] at hcl; subst hcl; cases hcall
            | policy => simp only [List.mem_singleton] at hcl; subst hcl; cases hcall
            | directive hm' hx => exact hm ⟨_, hm'⟩
            | _ => cases hcl
        rw [hnone]
        exact ih σ

theorem effectOf_unique {d : Directive} {c : Bool → Name → Prop} {σ τ τ' : Store} (h : EffectOf d c σ τ) (h' : EffectOf d c σ τ') :
    τ = τ' := by
  funext k w n
  by_cases hk : k = about d
  · subst hk
    by_cases hd : ∃ p, Declares d w n p ∧ c w n
    · obtain ⟨p, hd, hc⟩ := hd
      exact means_unique (h.declared w n p hd hc) (h'.declared w n p hd hc)
    · have hd : ∀ p, Declares d w n p → ¬ c w n := fun p hp hc => hd ⟨p, hp, hc⟩
      by_cases hu : ∃ u, LikeClass d u
      · obtain ⟨u, hu⟩ := hu
        cases hq : σ u w n with
        | some q => rw [h.likeSome u hu w n q hd hq, h'.likeSome u hu w n q hd hq]
        | none => rw [h.likeNone u hu w n hd hq, h'.likeNone u hu w n hd hq]
      · have hu : ∀ u, ¬ LikeClass d u := fun u h => hu ⟨u, h⟩
        rw [h.same hu w n hd, h'.same hu w n hd]
  · rw [h.frame k hk, h'.frame k hk]

theorem effectsFrom_unique {f : IdField} {evs : List Ev} {i : Nat} {σ τ τ' : Store} (h : EffectsFrom f evs i σ τ)
    (h' : EffectsFrom f evs i σ τ') : τ = τ' := by
  induction h with
  | done hn =>
    cases h' with
    | done => rfl
    | other he => rw [hn] at he; cases he
    | directive hsay => obtain ⟨e, he, _⟩ := hsay; rw [hn] at he; cases he
  | other he hno _ ih =>
    cases h' with
    | done hn => rw [hn] at he; cases he
    | other _ _ h2 => exact ih h2
    | directive hsay => exact absurd hsay (hno _ _)
  | directive hsay heff _ ih =>
    cases h' with
    | done hn => obtain ⟨e, he, _⟩ := hsay; rw [hn] at he; cases he
    | other _ hno => exact absurd hsay (hno _ _)
    | directive hsay' heff' h2 =>
      obtain ⟨rfl, rfl⟩ := says_unique hsay hsay'
      rw [effectOf_unique heff' heff] at h2
      exact ih h2

/-- **C68** All in all the declarations in force afterwards are the effects of what the files say, one
directive after the other in the order in which they are read, where what a file declares does not
count if a file that includes it declares the same; and this determines them. -/
theorem C68_effects (f : IdField) (evs : List Ev) (x x' : Site A) (hr : Readable f evs) (hs : Unambiguous f evs)
    (hh : Heap x.state) (hready : SiteReady f evs x.state) (hc : CarriedOut f evs x x') :
    EffectsFrom f evs 0 (storeOf x.state) (storeOf x'.state)
      ∧ ∀ τ, EffectsFrom f evs 0 (storeOf x.state) τ → τ = storeOf x'.state := by
  obtain ⟨parts, h1, h2⟩ := load_after hr hs hh hready hc
  have := effects_from h1 hs _ 0 (storeOf x.state) rfl
  rw [List.drop_zero] at this
  rw [h2.store]
  exact ⟨this, fun τ hτ => effectsFrom_unique hτ this⟩

/-- What no directive says anything about is stored as before. -/
theorem unmentioned_stored {f : IdField} {evs : List Ev} {x x' : Site A} {parts : List (List FAction)}
    (h1 : Emitted f evs parts) (h2 : AfterCalls ((firstRound parts.flatten).map (·.call)) x x') {k : Key} {w : Bool} {n : Name}
    (hn : ∀ i π d, Says f evs i π d → Silent d k w n) : stored w x'.state k n = stored w x.state k n := by
  have hst : stored w x'.state k n
      = actStores (declares ((firstRound parts.flatten).map (·.call))) (storeOf x.state) k w n := by
    rw [← h2.store]; rfl
  rw [hst, actStores_leaves]
  · rfl
  · intro b hb
    obtain ⟨i, π, d, hsay, hx, hbd⟩ := declare_says h1 b ((mem_declares _ b).mp hb)
    have hsil := hn i π d hsay
    obtain ⟨p0, l0, e1, e2, e3, e4⟩ := emit_actions d hx
    refine leaves_of_disc ?_ ?_
    · intro hdisc
      rw [e1] at hbd
      rcases List.mem_append.mp hbd with hbd | hbd
      · cases hlk : likeOf d with
        | none => rw [hlk] at hbd; cases hbd
        | some u =>
          rw [hlk] at hbd
          simp only [mimicActions, List.mem_singleton] at hbd
          subst hbd; cases hdisc
      · have hpl := e2 b hbd
        cases b with
        | name k' n' p' =>
          cases w with
          | true => simp [discOf, discS] at hdisc
          | false =>
            simp only [discOf, discS, Option.some.injEq, Disc.protectName.injEq] at hdisc
            obtain ⟨rfl, rfl⟩ := hdisc
            obtain ⟨q, hq⟩ := (e3 false n').mp ⟨_, hbd, rfl⟩
            exact (hsil hpl.1.symm).1 q hq
        | setAttr k' n' p' =>
          cases w with
          | false => simp [discOf, discS] at hdisc
          | true =>
            simp only [discOf, discS, Option.some.injEq, Disc.protectSetAttribute.injEq] at hdisc
            obtain ⟨rfl, rfl⟩ := hdisc
            obtain ⟨q, hq⟩ := (e3 true n').mp ⟨_, hbd, rfl⟩
            exact (hsil hpl.1.symm).1 q hq
        | _ => cases hdisc
    · rintro kl rfl
      obtain ⟨hab, hlk⟩ := mimic_says hx hbd
      exact (hsil hab).2 kl hlk

/-- **C68** What no directive of any file says anything about is required as before. -/
theorem C68_unmentioned (f : IdField) (evs : List Ev) (x x' : Site A) (hr : Readable f evs) (hs : Unambiguous f evs)
    (hh : Heap x.state) (hready : SiteReady f evs x.state) (hc : CarriedOut f evs x x') (k : Key) (w : Bool) (n : Name)
    (hn : ∀ i π d, Says f evs i π d → Silent d k w n) : required w x'.state k n = required w x.state k n := by
  obtain ⟨parts, h1, h2⟩ := load_after hr hs hh hready hc
  rw [required_eq, required_eq, unmentioned_stored h1 h2 hn]

/-! ## The order of the files -/

theorem says_of_times {f : IdField} {evs : List Ev} {parts : List (List FAction)} (h : Emitted f evs parts) {i : Nat} {e : Ev}
    (he : evs[i]? = some e) {k : Key} {w : Bool} {n : Name} (ht : 0 < times f e (.requirement k w n)) :
    ∃ d q, Says f evs i (includePath (evs.take i)) d ∧ about d = k ∧ Declares d w n q := by
  obtain ⟨own, ho, hi⟩ := h.at_ i e he
  obtain ⟨hc, _⟩ := h.count hi he (.requirement k w n)
  obtain ⟨b, hb, hbd⟩ := having_pos.mp (by rw [hc]; exact ht)
  have hb2 := List.mem_append.mp hb
  clear hb hi hc
  rcases hb2 with hb | hb
  · obtain ⟨_, _, _, rfl⟩ := mem_checks hb
    cases hbd
  · cases ho with
    | permission => simp only [List.mem_singleton] at hb; subst hb; cases w <;> cases hbd
    | policy => simp only [List.mem_singleton] at hb; subst hb; cases w <;> cases hbd
    | @directive _ d hm hx =>
      obtain ⟨a, ha, rfl⟩ := List.mem_map.mp hb
      obtain ⟨p0, l0, e1, e2, e3, e4⟩ := emit_actions d hx
      rw [e1] at ha
      rcases List.mem_append.mp ha with ha | ha
      · cases hlk : likeOf d with
        | none => rw [hlk] at ha; cases ha
        | some u =>
          rw [hlk] at ha
          simp only [mimicActions, List.mem_singleton] at ha
          subst ha; cases hbd
      · have hk : about d = k := by
          have := e2 a ha
          simp only [declared] at hbd
          cases a with
          | name k' n' p' => obtain ⟨rfl, _⟩ := this; cases w <;> simp_all [discOf, discS]
          | setAttr k' n' p' => obtain ⟨rfl, _⟩ := this; cases w <;> simp_all [discOf, discS]
          | _ => cases hbd
        subst hk
        obtain ⟨q, hq⟩ := (e3 w n).mp ⟨a, ha, (said_disc (e2 a ha)).mpr hbd⟩
        exact ⟨d, q, ⟨e, he, hm, rfl⟩, rfl, hq⟩
    | _ => cases hb

theorem times_of_says {f : IdField} {evs : List Ev} {parts : List (List FAction)} (h : Emitted f evs parts) {i : Nat}
    {π : List String} {d : Directive} (hsay : Says f evs i π d) {w : Bool} {n : Name} {q : Val} (hq : Declares d w n q) :
    ∃ e, evs[i]? = some e ∧ 0 < times f e (.requirement (about d) w n) := by
  obtain ⟨e, he, hm, _⟩ := hsay
  obtain ⟨own, ho, hi⟩ := h.at_ i e he
  obtain ⟨hc, _⟩ := h.count hi he (.requirement (about d) w n)
  refine ⟨e, he, ?_⟩
  have hdir : (emitDirective d).2 = none ∧ own = (emitDirective d).1.map (declared (includePath (evs.take i))) := by
    cases ho with
    | directive hm' hx => cases meant_functional hm hm'; exact ⟨hx, rfl⟩
    | _ => cases hm
  obtain ⟨hx, rfl⟩ := hdir
  obtain ⟨p0, l0, e1, e2, e3, e4⟩ := emit_actions d hx
  obtain ⟨a, ha, hsa⟩ := (e3 w n).mpr ⟨q, hq⟩
  rw [← hc]
  refine having_pos.mpr ⟨declared (includePath (evs.take i)) a, ?_, (said_disc (e2 a ha)).mp hsa⟩
  rw [e1]
  exact List.mem_append_right _ (List.mem_map.mpr ⟨a, List.mem_append_right _ ha, rfl⟩)

/-- **C68** Without `like_class`, only what is said in which file matters, not in which order: two
configurations that say the same in the same files leave the same required. -/
theorem C68_order_free (f f' : IdField) (evs evs' : List Ev) (x x' y y' : Site A)
    (hr : Readable f evs) (hs : Unambiguous f evs) (hh : Heap x.state) (hready : SiteReady f evs x.state) (hc : CarriedOut f evs x x')
    (hr' : Readable f' evs') (hs' : Unambiguous f' evs') (hh' : Heap y.state) (hready' : SiteReady f' evs' y.state)
    (hc' : CarriedOut f' evs' y y') (k : Key) (hxy : ∀ w n, required w x.state k n = required w y.state k n)
    (hsame : ∀ π d, about d = k → ((∃ i, Says f evs i π d) ↔ ∃ i, Says f' evs' i π d))
    (hlike : ∀ i π d u, Says f evs i π d → about d = k → ¬ LikeClass d u) (w : Bool) (n : Name) :
    required w x'.state k n = required w y'.state k n := by
  obtain ⟨parts, h1, h2⟩ := load_after hr hs hh hready hc
  obtain ⟨parts', h1', h2'⟩ := load_after hr' hs' hh' hready' hc'
  have hlike' : ∀ i π d u, Says f' evs' i π d → about d = k → ¬ LikeClass d u := by
    intro i π d u hsay ha
    obtain ⟨j, hj⟩ := (hsame π d ha).mpr ⟨i, hsay⟩
    exact hlike j π d u hj ha
  by_cases hd : ∃ i π d q, Says f evs i π d ∧ about d = k ∧ Declares d w n q
  · obtain ⟨i0, π0, d0, q0, hsay0, rfl, hd0⟩ := hd
    obtain ⟨e0, he0, ht0⟩ := times_of_says h1 hsay0 hd0
    obtain ⟨i, hi⟩ := hs _ ⟨e0, List.mem_of_getElem? he0, ht0⟩
    obtain ⟨j0, hsay0'⟩ := (hsame π0 d0 rfl).mp ⟨i0, hsay0⟩
    obtain ⟨e0', he0', ht0'⟩ := times_of_says h1' hsay0' hd0
    obtain ⟨j, hj⟩ := hs' _ ⟨e0', List.mem_of_getElem? he0', ht0'⟩
    obtain ⟨⟨e, he, ht⟩, hout⟩ := id hi
    obtain ⟨⟨e', he', ht'⟩, hout'⟩ := id hj
    obtain ⟨d, q, hsay, ha, hq⟩ := says_of_times h1 he (by rw [ht]; omega)
    obtain ⟨d', q', hsay', ha', hq'⟩ := says_of_times h1' he' (by rw [ht']; omega)
    -- the same directive, in the other configuration
    obtain ⟨i2, hi2⟩ := (hsame _ d ha).mp ⟨i, hsay⟩
    obtain ⟨j2, hj2⟩ := (hsame _ d' ha').mpr ⟨j, hsay'⟩
    have hdd : d = d' := by
      by_cases hji : j2 = i
      · subst hji; exact (says_unique hsay hj2).1
      · obtain ⟨e2, he2, ht2⟩ := times_of_says h1 hj2 hq'
        rw [ha'] at ht2
        have hw := hout j2 e2 he2 ht2 hji
        obtain ⟨_, _, _, hp2⟩ := id hj2
        rw [← hp2] at hw
        by_cases hij : i2 = j
        · subst hij
          exact absurd (says_unique hi2 hsay').2 hw.2
        · obtain ⟨e3, he3, ht3⟩ := times_of_says h1' hi2 hq
          rw [ha] at ht3
          have hw' := hout' i2 e3 he3 ht3 hij
          obtain ⟨_, _, _, hp3⟩ := id hi2
          rw [← hp3] at hw'
          exact absurd (List.IsPrefix.eq_of_length_le hw.1 hw'.1.length_le) hw.2
    subst hdd
    have m1 := C68_declared f evs x x' hr hs hh hready hc i _ d w n q hsay hq (ha ▸ hi)
      (fun j π' d' u hs1 hs2 hs3 => absurd hs3 (hlike j π' d' u hs1 (hs2.trans ha)))
    have m2 := C68_declared f' evs' y y' hr' hs' hh' hready' hc' j _ d w n q hsay' hq (ha ▸ hj)
      (fun j π' d' u hs1 hs2 hs3 => absurd hs3 (hlike' j π' d' u hs1 (hs2.trans ha)))
    rw [ha] at m1 m2
    exact means_unique m1 m2
  · have hsil : ∀ i π d, Says f evs i π d → Silent d k w n :=
      fun i π d hsay ha => ⟨fun p hp => hd ⟨i, π, d, p, hsay, ha, hp⟩, fun u => hlike i π d u hsay ha⟩
    have hsil' : ∀ i π d, Says f' evs' i π d → Silent d k w n := by
      intro i π d hsay ha
      obtain ⟨j, hj⟩ := (hsame π d ha).mpr ⟨i, hsay⟩
      exact hsil j π d hj ha
    rw [C68_unmentioned f evs x x' hr hs hh hready hc k w n hsil,
      C68_unmentioned f' evs' y y' hr' hs' hh' hready' hc' k w n hsil', hxy]

/-! ## What is carried out for untrusted code -/

theorem stock_policy {E : Ext} {s : St A} (h : Stock E s) (p : Policy) : Stock E { s with policy := p } := by
  cases h
  constructor <;> assumption

theorem stock_calls {E : Ext} (l : List Call) (x : Site A) (h : Stock E x.state) : Stock E (runCalls x l).2.state := by
  induction l generalizing x with
  | nil => exact h
  | cons c r ih =>
    have hc : Stock E (runCall x c).2.state := by
      cases c with
      | define id => exact h
      | check id => exact h
      | policy p => exact stock_policy h p
      | declare a => exact stock_action a x.state h
    rcases hrun : runCall x c with ⟨o, x2⟩
    rw [hrun] at hc
    simp only [runCalls, hrun]
    cases o with
    | ok u => exact ih x2 hc
    | err e => exact hc
    | diverge => exact hc

theorem stock_load {E : Ext} (f : IdField) (evs : List Ev) (x : Site A) (h : Stock E x.state) :
    Stock E (loadFile f evs x).2.state := by
  unfold loadFile
  split
  · split
    · exact stock_calls _ x h
    · exact h
  · exact h
  · exact h

/-- **C68** The package is imported, a configuration is loaded, and an application that relies on it
hands out compiled proxies: what is carried out for untrusted code on application objects is what the
declarations of C68_effects permit, and the interaction grants. -/
theorem C68_permitted (E : Ext) (a : A) (u : Utilities) (f : IdField) (evs : List Ev) (x' : Site A) (hr : Readable f evs)
    (hs : Unambiguous f evs) (hready : SiteReady f evs (initial E a)) (hc : CarriedOut f evs ⟨initial E a, u⟩ x') :
    ∃ σ, EffectsFrom f evs 0 (storeOf (initial E a)) σ ∧ (∀ τ, EffectsFrom f evs 0 (storeOf (initial E a)) τ → τ = σ) ∧
      ∀ X : Ctx A, X.impl = .c → Relies X.W x'.state → ∀ start held s held', protection start = protection x'.state →
        (∀ v ∈ held, Issued X.W x'.state.reg v) → Session X (start, held) (s, held') →
        ∀ p ∈ held', IsProxy p → ∀ op, (∀ v ∈ opArgs op, v ∈ held') →
          NewEvents s (pop X p op s).2 (Only (Permitted X σ s p op))
          ∧ ∀ q, need .c p op = some q → ¬ NoSlot .c op → op ≠ .str → op ≠ .repr →
            ∀ i w c, q.actor = .proxy i w c → Permits X σ s w (isWrite q.kind) q.name →
              ∃ es, (pop X p op s).2.trace = s.trace ++ es ∧ .performed (q.carry w) ∈ es := by
  obtain ⟨h1, h2⟩ := C68_effects f evs ⟨initial E a, u⟩ x' hr hs (heap_initial E a) hready hc
  have hE : Stock E x'.state := by
    have := stock_load (E := E) f evs ⟨initial E a, u⟩ (stock_initial E a)
    rcases hc with hc | hc <;> rw [hc] at this <;> exact this
  exact ⟨_, h1, h2, fun X hi hX start held s held' hst hh hses p hp hpp op harg =>
    ⟨stock_permitted hE hi hX hst hh hses p hp hpp op harg, fun q hq hslot hstr hrepr i w c hact hper =>
      stock_carried_out hE hi hX hst hh hses p hp hpp op harg q hq hslot hstr hrepr i w c hact hper⟩⟩

/-! ## The configuration that comes with the package -/

/-- A configuration in which nothing is determined twice has no conflicts. -/
theorem settled_of_once {f : IdField} {evs : List Ev} (pos : Subject → Nat)
    (h : ∀ i e x, evs[i]? = some e → 0 < times f e x → i = pos x ∧ times f e x = 1) : Unambiguous f evs := by
  rintro x ⟨e, he, ht⟩
  obtain ⟨i, hi⟩ := List.mem_iff_getElem?.mp he
  obtain ⟨h1, h2⟩ := h i e x hi ht
  exact ⟨i, ⟨e, hi, h2⟩, fun j e' hj ht' hne => absurd ((h j e' x hj ht').1.trans h1.symm) hne⟩

/-- `IPermission` (interfaces.py:477-499). -/
def iPermission : Iface := [("id", .field true), ("title", .field false), ("description", .field false)]

/-- The ids of permissions.zcml (lines 9-40). -/
def shippedIds : List String :=
  ["zope.Public", "zope.View", "zope.Security", "zope.ManageContent", "zope.ManageServices", "zope.ManageSite"]

/-- configure.zcml (lines 1-24) with permissions.zcml (lines 1-42), apart from the vocabularies and the
definitions of directives. -/
def shipped : List Ev :=
  [.enter (some "configure.zcml"), .cls "Permission" (.allow [] [some iPermission]), .enter (some "permissions.zcml"),
   .permission "zope.Public", .permission "zope.View", .permission "zope.Security", .permission "zope.ManageContent",
   .permission "zope.ManageServices", .permission "zope.ManageSite", .leave, .leave]

/-- Where `shipped` determines something. -/
def shippedAt : Subject → Nat
  | .requirement _ _ _ => 1
  | .permission id => 3 + shippedIds.idxOf id
  | .policy => 0

theorem shipped_says {f : IdField} {i : Nat} {π : List String} {d : Directive} (h : Says f shipped i π d) :
    i = 1 ∧ π = ["configure.zcml"] ∧ d = .cls "Permission" (.allow [] [some iPermission]) := by
  obtain ⟨e, he, hm, rfl⟩ := h
  match i, he with
  | 1, he => cases he; cases hm; exact ⟨rfl, by decide, rfl⟩
  | 0, he => cases he; cases hm
  | 2, he => cases he; cases hm
  | 3, he => cases he; cases hm
  | 4, he => cases he; cases hm
  | 5, he => cases he; cases hm
  | 6, he => cases he; cases hm
  | 7, he => cases he; cases hm
  | 8, he => cases he; cases hm
  | 9, he => cases he; cases hm
  | 10, he => cases he; cases hm
  | n + 11, he => simp [shipped] at he

theorem shipped_settled {f : IdField} (hf : ∀ id ∈ shippedIds, f.strip id = id) : Unambiguous f shipped := by
  refine settled_of_once shippedAt fun i e x he ht => ?_
  have perm : ∀ raw ∈ shippedIds, ∀ x, 0 < times f (.permission raw) x →
      shippedAt x = 3 + shippedIds.idxOf raw ∧ times f (.permission raw) x = 1 := by
    intro raw hraw x ht
    cases x with
    | permission id =>
      simp only [times, hf raw hraw] at ht ⊢
      by_cases h : raw = id
      · subst h; simp [shippedAt]
      · simp [h] at ht
    | requirement k w n => cases w <;> simp [times] at ht
    | policy => simp [times] at ht
  have none_ : ∀ e', (e' = .leave ∨ ∃ file, e' = .enter file) → ∀ x, times f e' x = 0 := by
    rintro _ (rfl | ⟨file, rfl⟩) x
    · cases x <;> rfl
    · cases x <;> rfl
  match i, he with
  | 0, he => cases he; rw [none_ _ (.inr ⟨_, rfl⟩)] at ht; omega
  | 1, he =>
    cases he
    cases x with
    | requirement k w n =>
      refine ⟨rfl, ?_⟩
      cases w with
      | true => simp [times] at ht
      | false =>
        have hle : times f (.cls "Permission" (.allow [] [some iPermission])) (.requirement k false n) ≤ 1 := by
          simp only [times]
          split
          · simp only [List.count_nil, inInterfaces, List.filterMap_cons, id_eq, List.filterMap_nil, List.map_cons,
              List.map_nil, List.sum_cons, List.sum_nil, Nat.zero_add, Nat.add_zero]
            refine List.nodup_iff_count.mp ?_ n
            decide
          · omega
        omega
    | permission id => simp [times] at ht
    | policy => simp [times] at ht
  | 2, he => cases he; rw [none_ _ (.inr ⟨_, rfl⟩)] at ht; omega
  | 3, he => cases he; obtain ⟨h1, h2⟩ := perm _ (by decide) x ht; exact ⟨by rw [h1]; decide, h2⟩
  | 4, he => cases he; obtain ⟨h1, h2⟩ := perm _ (by decide) x ht; exact ⟨by rw [h1]; decide, h2⟩
  | 5, he => cases he; obtain ⟨h1, h2⟩ := perm _ (by decide) x ht; exact ⟨by rw [h1]; decide, h2⟩
  | 6, he => cases he; obtain ⟨h1, h2⟩ := perm _ (by decide) x ht; exact ⟨by rw [h1]; decide, h2⟩
  | 7, he => cases he; obtain ⟨h1, h2⟩ := perm _ (by decide) x ht; exact ⟨by rw [h1]; decide, h2⟩
  | 8, he => cases he; obtain ⟨h1, h2⟩ := perm _ (by decide) x ht; exact ⟨by rw [h1]; decide, h2⟩
  | 9, he => cases he; rw [none_ _ (.inl rfl)] at ht; omega
  | 10, he => cases he; rw [none_ _ (.inl rfl)] at ht; omega
  | n + 11, he => simp [shipped] at he

theorem shipped_readable {f : IdField} (hf : ∀ id ∈ shippedIds, f.strip id = id)
    (hv : ∀ id ∈ shippedIds, f.valid id = true) : Readable f shipped := by
  intro i e he exn hw
  have perm : ∀ pre, ∀ raw ∈ shippedIds, ¬ Wrong f pre (.permission raw) exn := by
    intro pre raw hraw hw
    cases hw with
    | permission h => rw [hf raw hraw, hv raw hraw] at h; cases h
    | given h => cases h
    | directive _ h => cases h
  match i, he with
  | 0, he =>
    cases he
    cases hw with
    | given h => cases h
    | directive _ h => cases h
  | 1, he =>
    cases he
    cases hw with
    | given h => cases h
    | directive _ h h' => cases h; cases h'
  | 2, he =>
    cases he
    cases hw with
    | given h => cases h
    | directive _ h => cases h
  | 3, he => cases he; exact perm _ _ (by decide) hw
  | 4, he => cases he; exact perm _ _ (by decide) hw
  | 5, he => cases he; exact perm _ _ (by decide) hw
  | 6, he => cases he; exact perm _ _ (by decide) hw
  | 7, he => cases he; exact perm _ _ (by decide) hw
  | 8, he => cases he; exact perm _ _ (by decide) hw
  | 9, he =>
    cases he
    cases hw with
    | leave h => revert h; decide
    | given h => cases h
    | directive _ h => cases h
  | 10, he =>
    cases he
    cases hw with
    | leave h => revert h; decide
    | given h => cases h
    | directive _ h => cases h
  | n + 11, he => simp [shipped] at he

/-- **C68** Loading the configuration that comes with the package succeeds, defines exactly its
permissions, makes exactly the three attributes of `IPermission` readable for everybody on
permissions, and changes nothing else: neither what other classes require nor the policy. -/
theorem C68_shipped (E : Ext) (a : A) (u : Utilities) (f : IdField) (hf : ∀ id ∈ shippedIds, f.strip id = id)
    (hv : ∀ id ∈ shippedIds, f.valid id = true) :
    ∃ x', loadFile f shipped ⟨initial E a, u⟩ = (.ok (), x')
      ∧ (∀ id, Registered x'.utilities id ↔ Registered u id ∨ id ∈ shippedIds)
      ∧ (∀ n, required false x'.state (.ty "Permission") n
          = if n = "id" ∨ n = "title" ∨ n = "description" then some publicV else none)
      ∧ (∀ n, required true x'.state (.ty "Permission") n = none)
      ∧ (∀ k w n, k ≠ .ty "Permission" → required w x'.state k n = required w (initial E a) k n)
      ∧ x'.state.policy = .paranoid := by
  have hr := shipped_readable hf hv
  have hs := shipped_settled hf
  have hnone : (initial E a).reg.get? (.ty "Permission") = none := by
    show (PyDict.update (PyDict.update [] defaultCheckers) basicTypes).get? (.ty "Permission") = none
    decide
  have hready : SiteReady f shipped (initial E a) := by
    intro i π d hsay
    obtain ⟨_, _, rfl⟩ := shipped_says hsay
    refine ⟨⟨fun c hc => ?_, fun c g st hc => ?_⟩, fun k hk => (nomatch hk)⟩
    · rw [show about (.cls "Permission" (.allow [] [some iPermission])) = .ty "Permission" from rfl, hnone] at hc; cases hc
    · rw [show about (.cls "Permission" (.allow [] [some iPermission])) = .ty "Permission" from rfl, hnone] at hc; cases hc
  obtain ⟨x', hc, hok⟩ := C68_carried_out f shipped ⟨initial E a, u⟩ hr hs (heap_initial E a) hready
  have hload : loadFile f shipped ⟨initial E a, u⟩ = (.ok (), x') := by
    refine hok.mpr ?_
    rintro id ⟨e, he, raw, hg, _, _⟩
    simp only [shipped, List.mem_cons, List.not_mem_nil, or_false] at he
    rcases he with rfl | rfl | rfl | rfl | rfl | rfl | rfl | rfl | rfl | rfl | rfl <;> cases hg
  have hreq0 : ∀ w n, required w (initial E a) (.ty "Permission") n = none := by
    intro w n
    rw [required_eq]
    simp [stored, hnone, dropNone]
  refine ⟨x', hload, ?_, ?_, ?_, ?_, ?_⟩
  · intro id
    rw [C68_permissions f shipped _ x' hr hs (heap_initial E a) hready hc id]
    refine or_congr Iff.rfl ?_
    constructor
    · rintro ⟨raw, hm, rfl⟩
      have : raw ∈ shippedIds := by
        simp only [shipped, List.mem_cons, List.not_mem_nil, or_false, Ev.permission.injEq, reduceCtorEq, false_or] at hm
        simpa [shippedIds] using hm
      rw [hf raw this]; exact this
    · intro hid
      refine ⟨id, ?_, hf id hid⟩
      simp only [shippedIds, List.mem_cons, List.not_mem_nil, or_false] at hid
      rcases hid with rfl | rfl | rfl | rfl | rfl | rfl <;> simp [shipped]
  · intro n
    split
    · next hn =>
      have hname : HasName iPermission n := by
        rcases hn with rfl | rfl | rfl
        · exact ⟨.field true, by simp [iPermission]⟩
        · exact ⟨.field false, by simp [iPermission]⟩
        · exact ⟨.field false, by simp [iPermission]⟩
      have hd : Declares (.cls "Permission" (.allow [] [some iPermission])) false n (.str 0 "zope.Public") :=
        .allowInterface (by simp) hname
      have hsay : Says f shipped 1 ["configure.zcml"] (.cls "Permission" (.allow [] [some iPermission])) :=
        ⟨_, rfl, .allow, by decide⟩
      obtain ⟨parts, h1, _⟩ := load_after hr hs (heap_initial E a) hready hc
      obtain ⟨e, he, ht⟩ := times_of_says h1 hsay hd
      obtain ⟨i, hi⟩ := hs _ ⟨e, List.mem_of_getElem? he, ht⟩
      have hi1 : i = 1 := by
        obtain ⟨⟨e', he', ht'⟩, _⟩ := hi
        obtain ⟨d, _, hs', _, _⟩ := says_of_times h1 he' (by rw [ht']; omega)
        exact (shipped_says hs').1
      subst hi1
      have := C68_declared f shipped _ x' hr hs (heap_initial E a) hready hc 1 _ _ false n _ hsay hd hi
        (fun j π d k hs' _ hk => by obtain ⟨_, _, rfl⟩ := shipped_says hs'; cases hk)
      exact means_unique this (.isPublic 0)
    · next hn =>
      rw [C68_unmentioned f shipped _ x' hr hs (heap_initial E a) hready hc, hreq0]
      intro i π d hsay _
      obtain ⟨_, _, rfl⟩ := shipped_says hsay
      refine ⟨fun p hp => ?_, fun k hk => (nomatch hk)⟩
      cases hp with
      | allowAttributes h => cases h
      | allowInterface h hname =>
        simp only [List.mem_singleton, Option.some.injEq] at h
        subst h
        obtain ⟨y, hy⟩ := hname
        apply hn
        simp only [iPermission, List.mem_cons, Prod.mk.injEq, List.not_mem_nil, or_false] at hy
        exact hy.imp (·.1) (Or.imp (·.1) (·.1))
  · intro n
    rw [C68_unmentioned f shipped _ x' hr hs (heap_initial E a) hready hc, hreq0]
    intro i π d hsay _
    obtain ⟨_, _, rfl⟩ := shipped_says hsay
    exact ⟨fun p hp => (nomatch hp), fun k hk => (nomatch hk)⟩
  · intro k w n hk
    refine C68_unmentioned f shipped _ x' hr hs (heap_initial E a) hready hc k w n ?_
    intro i π d hsay ha
    obtain ⟨_, _, rfl⟩ := shipped_says hsay
    exact absurd ha.symm hk
  · refine (C68_policy f shipped _ x' hr hs (heap_initial E a) hready hc).2 ?_
    intro q hq
    simp [shipped] at hq

/-! ## A case -/

namespace Files

def field : IdField := ⟨fun x => x, fun _ => true⟩

/-- a.zcml says that `view` means `edit` from there on and protects two attributes with it; the
including file protects one of them itself, afterwards. -/
def evs : List Ev :=
  [.enter (some "site.zcml"), .permission "view", .permission "edit", .enter (some "a.zcml"), .redefine "view" "edit",
   .cls "Doc" (.require ⟨some "view", ["title", "body"], [], none, [], []⟩), .leave,
   .cls "Doc" (.require ⟨some "view", ["title"], [], none, [], []⟩), .leave]

/-- The site at the beginning. -/
def start : Site Unit := ⟨Ex.s0, []⟩

/-- What is required and stored after loading. -/
def outcome (evs : List Ev) : Res Unit × Option Val × Option Val × List String :=
  ((loadFile field evs start).1, required false (loadFile field evs start).2.state (.ty "Doc") "title",
    required false (loadFile field evs start).2.state (.ty "Doc") "body",
    (loadFile field evs start).2.utilities.map (·.1))

/-- The including file's declaration stays, and its `view` is `view`. -/
theorem outcome_evs : outcome evs = (.ok (), some (.str 0 "view"), some (.str 0 "edit"), ["edit", "view"]) := by
  decide +kernel

/-- The other way round: the including file comes first, with the same result. -/
example : outcome
    [.enter (some "site.zcml"), .permission "view", .permission "edit",
     .cls "Doc" (.require ⟨some "view", ["title"], [], none, [], []⟩), .enter (some "a.zcml"), .redefine "view" "edit",
     .cls "Doc" (.require ⟨some "view", ["title", "body"], [], none, [], []⟩), .leave, .leave]
    = (.ok (), some (.str 0 "view"), some (.str 0 "edit"), ["edit", "view"]) := by
  decide +kernel

/-- Once the including file has redefined something, redefinitions in included files apply to it, too:
there is one mapping. -/
example : outcome
    [.enter (some "site.zcml"), .permission "view", .permission "edit", .redefine "edit" "edit", .enter (some "a.zcml"),
     .redefine "view" "edit", .leave, .cls "Doc" (.require ⟨some "view", ["title"], [], none, [], []⟩), .leave]
    = (.ok (), some (.str 0 "edit"), none, ["edit", "view"]) := by
  decide +kernel

/-- Two files neither of which includes the other must not declare the same: nothing is carried out. -/
example : outcome
    [.enter (some "site.zcml"), .permission "view", .permission "edit",
     .enter (some "a.zcml"), .cls "Doc" (.require ⟨some "view", ["title"], [], none, [], []⟩), .leave,
     .enter (some "b.zcml"), .cls "Doc" (.require ⟨some "view", ["title"], [], none, [], []⟩), .leave, .leave]
    = (.err .configurationError, none, none, []) := by
  decide +kernel

/-- An id that is never defined: everything else has been carried out by then. -/
example : outcome
    [.enter (some "site.zcml"), .permission "view", .cls "Doc" (.require ⟨some "voew", ["title"], [], none, [], []⟩), .leave]
    = (.err .valueError, some (.str 0 "voew"), none, ["view"]) := by
  decide +kernel

end Files

/-- The configuration can be read. -/
theorem readable_of_load {f : IdField} {evs : List Ev} {x x' : Site A} (h : CarriedOut f evs x x') :
    Readable f evs := by
  rcases read_all (reflects_start f) evs with ⟨_, _, _, _, _, h4⟩ | ⟨y, h1, i, e, h2, h3, _⟩
  · intro i e he exn hw
    exact h4 i e he exn (by simpa using hw)
  · have hl : loadFile f evs x = (.err y, x) := by
      unfold loadFile
      rw [h1]
    simp only [List.nil_append] at h3
    have hy : y = .configurationError ∨ y = .typeError := by
      cases h3 with
      | leave => exact .inl rfl
      | permission => exact .inl rfl
      | given => exact .inl rfl
      | directive _ _ h => cases h <;> simp
    rcases h with h | h <;> rw [hl] at h <;> cases h <;> rcases hy with hy | hy <;> cases hy

/-- ... and has no conflicts. -/
theorem settled_of_load {f : IdField} {evs : List Ev} {x x' : Site A} (h : CarriedOut f evs x x') : Unambiguous f evs := by
  refine Classical.byContradiction fun hs => ?_
  have := C68_conflict f evs x (readable_of_load h) hs
  rcases h with h | h <;> rw [this] at h <;> cases h

namespace Files

/-- The hypotheses are met: the directive of the including file is the outermost about `title`, that of
the included one about `body`. -/
example : ∃ x', CarriedOut field evs start x' ∧ Readable field evs ∧ Unambiguous field evs ∧ Heap start.state
    ∧ SiteReady field evs start.state
    ∧ Outermost field evs 7 (.requirement (.ty "Doc") false "title") ∧ Outermost field evs 5 (.requirement (.ty "Doc") false "body")
    ∧ (∃ d, Says field evs 7 ["site.zcml"] d ∧ Declares d false "title" (.str 0 "view"))
    ∧ (∃ d, Says field evs 5 ["site.zcml", "a.zcml"] d ∧ Declares d false "body" (.str 0 "edit")) := by
  have h1 : (loadFile field evs start).1 = .ok () := congrArg (·.1) outcome_evs
  have hc : CarriedOut field evs start (loadFile field evs start).2 := .inl (Prod.ext h1 rfl)
  have says : ∀ i π d, Says field evs i π d → about d = .ty "Doc" ∧ ∀ u, ¬ LikeClass d u := by
    rintro i π d ⟨e, he, hm, -⟩
    have : e ∈ evs := List.mem_of_getElem? he
    simp only [evs, List.mem_cons, List.not_mem_nil, or_false] at this
    rcases this with rfl | rfl | rfl | rfl | rfl | rfl | rfl | rfl | rfl <;> cases hm
    · exact ⟨rfl, by rintro u ⟨h⟩; cases h⟩
    · rename_i h; cases h
    · exact ⟨rfl, by rintro u ⟨h⟩; cases h⟩
    · rename_i h; cases h
  have at_ : ∀ j e x, evs[j]? = some e → 0 < times field e x → x = .requirement (.ty "Doc") false "title" ∨
      x = .requirement (.ty "Doc") false "body" → j = 5 ∨ j = 7 ∧ x = .requirement (.ty "Doc") false "title" := by
    intro j e x he ht hx
    match j, he with
    | 0, he => cases he; rcases hx with rfl | rfl <;> cases ht
    | 1, he => cases he; rcases hx with rfl | rfl <;> cases ht
    | 2, he => cases he; rcases hx with rfl | rfl <;> cases ht
    | 3, he => cases he; rcases hx with rfl | rfl <;> cases ht
    | 4, he => cases he; rcases hx with rfl | rfl <;> cases ht
    | 5, he => exact .inl rfl
    | 6, he => cases he; rcases hx with rfl | rfl <;> cases ht
    | 7, he =>
      rcases hx with rfl | rfl
      · exact .inr ⟨rfl, rfl⟩
      · cases he; revert ht; decide
    | 8, he => cases he; rcases hx with rfl | rfl <;> cases ht
    | n + 9, he => simp [evs] at he
  refine ⟨_, hc, readable_of_load hc, settled_of_load hc, heap_initial Ex.ext (), ?_, ?_, ?_, ?_, ?_⟩
  · intro i π d hsay
    obtain ⟨hk, hl⟩ := says i π d hsay
    have hn : Ex.s0.reg.get? (.ty "Doc") = none := by decide
    refine ⟨⟨fun c hc => ?_, fun c g st hc => ?_⟩, fun u hu => absurd hu (hl u)⟩
    · rw [hk] at hc; exact absurd (hn.symm.trans hc) (by simp)
    · rw [hk] at hc; exact absurd (hn.symm.trans hc) (by simp)
  · refine ⟨⟨_, rfl, by decide⟩, fun j e he ht hne => ?_⟩
    rcases at_ j e _ he ht (.inl rfl) with rfl | ⟨rfl, _⟩
    · exact ⟨⟨["a.zcml"], by decide⟩, by decide⟩
    · exact absurd rfl hne
  · refine ⟨⟨_, rfl, by decide⟩, fun j e he ht hne => ?_⟩
    rcases at_ j e _ he ht (.inr rfl) with rfl | ⟨rfl, h⟩
    · exact absurd rfl hne
    · exact absurd h (by decide)
  · exact ⟨_, ⟨_, rfl, .require rfl .start, by decide⟩, .attributes (by simp)⟩
  · exact ⟨_, ⟨_, rfl, .require rfl (.redefined .start .start), by decide⟩, .attributes (by simp)⟩

end Files

end ZS.Props
