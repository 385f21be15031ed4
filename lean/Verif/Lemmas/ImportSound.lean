import Verif.Lemmas.Import

/-! Real executions of module-level code, with whatever fails, agree with what
`Verif.Lemmas.Import` finds. -/

namespace ZS.Imp

/-! ### Namespaces -/

theorem Ns.look_drop (ns : Ns) (x y : Name) :
    (ns.drop x).look y = if x = y then none else ns.look y := by
  induction ns with
  | nil => simp [Ns.drop, Ns.look]
  | cons p r ih =>
    obtain ⟨z, v⟩ := p
    by_cases hz : z = x
    · subst hz
      simp only [Ns.drop, if_true, ih, Ns.look]
      by_cases hy : z = y <;> simp [hy]
    · simp only [Ns.drop, if_neg hz, Ns.look, ih]
      by_cases hy : z = y
      · subst hy
        simp [Ne.symm hz]
      · simp [hy]

theorem Ns.look_set (ns : Ns) (x : Name) (v : Val) (y : Name) :
    (ns.set x v).look y = if x = y then some v else ns.look y := by
  simp only [Ns.set, Ns.look, Ns.look_drop]
  by_cases h : x = y <;> simp [h]

theorem Ns.look_only (l : List Name) (ns : Ns) (n : Name) (v : Val)
    (h : (ns.only l).look n = some v) : ns.look n = some v := by
  induction ns with
  | nil => simp [Ns.only, Ns.look] at h
  | cons p r ih =>
    obtain ⟨z, u⟩ := p
    by_cases hz : z ∈ l
    · simp only [Ns.only, if_pos hz, Ns.look] at h ⊢
      by_cases hn : z = n
      · simpa [hn] using h
      · simp only [if_neg hn] at h ⊢
        exact ih h
    · simp only [Ns.only, if_neg hz] at h
      have h2 := ih h
      simp only [Ns.look]
      by_cases hn : z = n
      · subst hn
        have : ∀ q : Ns, (q.only l).look z = none := by
          intro q
          induction q with
          | nil => rfl
          | cons p q ih =>
            obtain ⟨y, t⟩ := p
            by_cases hy : y ∈ l
            · simp only [Ns.only, if_pos hy, Ns.look]
              rw [if_neg (fun e : y = z => hz (e ▸ hy)), ih]
            · simp only [Ns.only, if_neg hy, ih]
        rw [this] at h
        cases h
      · simp only [if_neg hn, h2]

theorem Ns.look_only_mem {l : List Name} {n : Name} (hn : n ∈ l) (ns : Ns) :
    (ns.only l).look n = ns.look n := by
  induction ns with
  | nil => rfl
  | cons p r ih =>
    obtain ⟨z, u⟩ := p
    by_cases hz : z ∈ l
    · simp only [Ns.only, if_pos hz, Ns.look, ih]
    · simp only [Ns.only, if_neg hz, Ns.look, ih]
      rw [if_neg (fun e : z = n => hz (e ▸ hn))]

theorem ANs.look_drop (ns : ANs) (x y : Name) :
    (ns.drop x).look y = if x = y then none else ns.look y := by
  induction ns with
  | nil => simp [ANs.drop, ANs.look]
  | cons p r ih =>
    obtain ⟨z, v⟩ := p
    by_cases hz : z = x
    · subst hz
      simp only [ANs.drop, if_true, ih, ANs.look]
      by_cases hy : z = y <;> simp [hy]
    · simp only [ANs.drop, if_neg hz, ANs.look, ih]
      by_cases hy : z = y
      · subst hy
        simp [Ne.symm hz]
      · simp [hy]

/-- The names are what they are known to be. -/
def Sat (R : Val → AV → Prop) (ns : Ns) (A : ANs) : Prop :=
  ∀ x a, A.look x = some a → ∃ v, ns.look x = some v ∧ R v a

theorem Sat.nil {R : Val → AV → Prop} (ns : Ns) : Sat R ns [] := fun _ _ h => nomatch h

theorem Sat.mono {R R' : Val → AV → Prop} {ns : Ns} {A : ANs} (h : Sat R ns A)
    (hr : ∀ v a, R v a → R' v a) : Sat R' ns A := fun x a hx => by
  obtain ⟨v, h1, h2⟩ := h x a hx
  exact ⟨v, h1, hr v a h2⟩

theorem Sat.put {R : Val → AV → Prop} {ns : Ns} {A : Abs} (h : Sat R ns A.names) {x : Name} {v : Val}
    {o : Option AV} (ho : ∀ a, o = some a → R v a) : Sat R (ns.set x v) (A.put x o).names := by
  intro y a hy
  rw [Ns.look_set]
  cases o with
  | some b =>
    simp only [Abs.put, ANs.look, ANs.look_drop] at hy
    by_cases hxy : x = y
    · simp only [if_pos hxy, Option.some.injEq] at hy
      subst hy
      exact ⟨v, if_pos hxy, ho b rfl⟩
    · simp only [if_neg hxy] at hy ⊢
      exact h y a hy
  | none =>
    simp only [Abs.put, ANs.look_drop] at hy
    by_cases hxy : x = y
    · simp [hxy] at hy
    · simp only [if_neg hxy] at hy ⊢
      exact h y a hy

theorem Sat.dropped {R : Val → AV → Prop} {ns : Ns} {A : Abs} (h : Sat R ns A.names) {x : Name} :
    Sat R (ns.drop x) (A.put x none).names := by
  intro y a hy
  rw [Ns.look_drop]
  simp only [Abs.put, ANs.look_drop] at hy
  by_cases hxy : x = y
  · simp [hxy] at hy
  · simp only [if_neg hxy] at hy ⊢
    exact h y a hy

/-! ### States -/

/-- The object was made by an execution that took place. -/
def OkV (runs : Mod → Nat) : Val → Prop
  | .made m _ r => 1 ≤ r ∧ r ≤ runs m
  | .get d => OkV runs d
  | _ => True

theorem OkV.mono {r r' : Mod → Nat} (h : ∀ u, r u ≤ r' u) {v : Val} (hv : OkV r v) : OkV r' v := by
  induction v with
  | made m _ _ => exact ⟨hv.1, Nat.le_trans hv.2 (h m)⟩
  | get _ ih => exact ih hv
  | static _ _ => trivial
  | module _ => trivial
  | flag _ => trivial

/-- The module's body has run to its end. -/
def Done (s : St) (t : Mod) : Prop := ∃ e, s.mods t = some e ∧ e.done = true

/-- The object was made by the latest execution of its module, which is `m` or a module
that was imported. -/
def Stamp (s : St) (m : Mod) : Val → Prop
  | .made t _ r => (t = m ∨ Done s t) ∧ r = s.runs t
  | .get d => Stamp s m d
  | _ => True

/-- A value of a name of module `m` is what it is known to be; only a C module's
`CheckerPublic` may be a leftover. -/
def Fits (s : St) (m : Mod) (v : Val) (a : AV) : Prop :=
  erase v = a ∧ ((isC m = true ∧ a = pub) ∨ Stamp s m v)

theorem Stamp.move {s s' : St} {m : Mod} (hm : s'.runs m = s.runs m)
    (hd : ∀ t, Done s t → Done s' t ∧ s'.runs t = s.runs t) {v : Val} (h : Stamp s m v) :
    Stamp s' m v := by
  induction v with
  | made t _ r =>
    obtain ⟨h1, h2⟩ := h
    rcases h1 with rfl | h1
    · exact ⟨.inl rfl, h2.trans hm.symm⟩
    · exact ⟨.inr (hd t h1).1, h2.trans (hd t h1).2.symm⟩
  | get _ ih => exact ih h
  | static _ _ => trivial
  | module _ => trivial
  | flag _ => trivial

theorem Fits.move {s s' : St} {m : Mod} (hm : s'.runs m = s.runs m)
    (hd : ∀ t, Done s t → Done s' t ∧ s'.runs t = s.runs t) {v : Val} {a : AV} (h : Fits s m v a) :
    Fits s' m v a := ⟨h.1, h.2.imp id (Stamp.move hm hd)⟩

/-- What was made by a finished module or by the modules it imported. -/
theorem Stamp.of_done {s : St} {t : Mod} (ht : Done s t) (m : Mod) {v : Val} (h : Stamp s t v) :
    Stamp s m v := by
  induction v with
  | made u _ r =>
    obtain ⟨h1, h2⟩ := h
    rcases h1 with rfl | h1
    · exact ⟨.inr ht, h2⟩
    · exact ⟨.inr h1, h2⟩
  | get _ ih => exact ih h
  | static _ _ => trivial
  | module _ => trivial
  | flag _ => trivial

structure Ctx (p w : Bool) (s : St) : Prop where
  inv : ∀ u e, s.mods u = some e → e.done = true → ∃ F ∈ finals p w u,
    (if isC u then Sat (Fits s u) (s.stat u) F.names ∧
        (∀ n v, e.ns.look n = some v → n ∈ exports u ∧ (s.stat u).look n = some v) ∧
        (∀ n ∈ exports u, e.ns.look n = (s.stat u).look n)
      else Sat (Fits s u) e.ns F.names) ∧
    ∀ t ∈ F.loaded, Done s t
  valid : ∀ u e x v, s.mods u = some e → e.ns.look x = some v → OkV s.runs v
  validS : ∀ u x v, (s.stat u).look x = some v → OkV s.runs v

/-- What changes while modules of rank at most `k` are imported. -/
structure Moves (k : Nat) (s s' : St) : Prop where
  frame : ∀ u, k < u.rank → s'.mods u = s.mods u ∧ s'.stat u = s.stat u
  kept : ∀ u e, s.mods u = some e → e.done = true → ∃ e', s'.mods u = some e' ∧ e'.done = true ∧
    s'.stat u = s.stat u ∧ ∀ n, (u ≠ .proxy ∨ n ≠ "ProxyFactory") → e'.ns.look n = e.ns.look n
  runs : ∀ u, s.runs u ≤ s'.runs u
  still : ∀ u, (k < u.rank ∨ Done s u) → s'.runs u = s.runs u

theorem Moves.rfl {k : Nat} {s : St} : Moves k s s :=
  ⟨fun _ _ => ⟨Eq.refl _, Eq.refl _⟩,
   fun _ e h hd => ⟨e, h, hd, Eq.refl _, fun _ _ => Eq.refl _⟩, fun _ => Nat.le_refl _, fun _ _ => Eq.refl _⟩

theorem Moves.trans {k : Nat} {s s' s'' : St} (h : Moves k s s') (h' : Moves k s' s'') :
    Moves k s s'' := by
  refine ⟨fun u hu => ⟨(h'.frame u hu).1.trans (h.frame u hu).1,
    (h'.frame u hu).2.trans (h.frame u hu).2⟩, fun u e he hd => ?_,
    fun u => Nat.le_trans (h.runs u) (h'.runs u), fun u hu => ?_⟩
  rotate_left
  · refine (h'.still u (hu.imp id fun ⟨e, he, hd⟩ => ?_)).trans (h.still u hu)
    obtain ⟨e1, h1, h2, -⟩ := h.kept u e he hd
    exact ⟨e1, h1, h2⟩
  obtain ⟨e1, h1, h2, h3, h4⟩ := h.kept u e he hd
  obtain ⟨e2, h5, h6, h7, h8⟩ := h'.kept u e1 h1 h2
  exact ⟨e2, h5, h6, h7.trans h3, fun n hn => (h8 n hn).trans (h4 n hn)⟩

theorem Moves.mono {k l : Nat} (hk : k ≤ l) {s s' : St} (h : Moves k s s') : Moves l s s' :=
  ⟨fun u hu => h.frame u (Nat.lt_of_le_of_lt hk hu), h.kept, h.runs,
    fun u hu => h.still u (hu.imp (Nat.lt_of_le_of_lt hk) id)⟩

theorem Moves.done {k : Nat} {s s' : St} (h : Moves k s s') {t : Mod} (ht : Done s t) :
    Done s' t := by
  obtain ⟨e, he, hd⟩ := ht
  obtain ⟨e', h1, h2, -⟩ := h.kept t e he hd
  exact ⟨e', h1, h2⟩

theorem Moves.fits {k : Nat} {s s' : St} (h : Moves k s s') {m : Mod} (hm : s'.runs m = s.runs m)
    {v : Val} {a : AV} (hv : Fits s m v a) : Fits s' m v a :=
  hv.move hm fun t ht => ⟨h.done ht, h.still t (.inr ht)⟩

/-- What is known when the body of `m` is being executed. -/
def Know (s : St) (m : Mod) (A : Abs) : Prop :=
  Sat (Fits s m) (own m s) A.names ∧ ∀ t ∈ A.loaded, Done s t

/-- `CheckerPublic` is there. -/
def Pub (s : St) : Prop :=
  ∃ e, s.mods .checker = some e ∧ ∃ v, e.ns.look "CheckerPublic" = some v ∧ erase v = pub

/-- While the body of `m` is being executed. -/
structure Within (p w : Bool) (m : Mod) (s : St) : Prop where
  ctx : Ctx p w s
  low : ∀ u e, u.rank < m.rank → s.mods u = some e → e.done = true
  here : isC m = false → ∃ ns, s.mods m = some ⟨false, ns⟩
  nowhere : isC m = true → s.mods m = none
  parent : (s.mods .pkg).isSome = true
  pub : m = .cchecker → Pub s

theorem Moves.congr {k : Nat} {s s' : St} (h1 : s'.mods = s.mods) (h2 : s'.stat = s.stat)
    (h3 : s'.runs = s.runs) : Moves k s s' := by
  refine ⟨fun u _ => ⟨by rw [h1], by rw [h2]⟩, fun u e he hd => ⟨e, by rw [h1]; exact he, hd,
    by rw [h2], fun _ _ => Eq.refl _⟩, fun u => by rw [h3]; exact Nat.le_refl _,
    fun u _ => by rw [h3]⟩

theorem Know.congr {s s' : St} {m : Mod} {A : Abs} (h : Know s m A) (h1 : s'.mods = s.mods)
    (h2 : s'.stat = s.stat) (h3 : s'.runs = s.runs) : Know s' m A := by
  refine ⟨?_, fun t ht => ?_⟩
  · have : own m s' = own m s := by simp only [own, h1, h2]
    rw [this]
    exact h.1.mono fun v a => Fits.move (by rw [h3]) fun t ⟨e, he, hd⟩ =>
      ⟨⟨e, by rw [h1]; exact he, hd⟩, by rw [h3]⟩
  · obtain ⟨e, he, hd⟩ := h.2 t ht
    exact ⟨e, by rw [h1]; exact he, hd⟩

/-- The invariant survives changes that keep the finished modules. -/
theorem Ctx.of_moves {p w : Bool} {k : Nat} {s s' : St} (h : Ctx p w s) (hm : Moves k s s')
    (hnew : ∀ u e, s'.mods u = some e → e.done = true → Done s u)
    (hv : ∀ u e x v, s'.mods u = some e → e.ns.look x = some v → OkV s'.runs v)
    (hs : ∀ u x v, (s'.stat u).look x = some v → OkV s'.runs v) : Ctx p w s' := by
  refine ⟨fun u e he hd => ?_, hv, hs⟩
  obtain ⟨e0, he0, hd0⟩ := hnew u e he hd
  obtain ⟨F, hF, h1, h2⟩ := h.inv u e0 he0 hd0
  obtain ⟨e1, h3, h4, h5, h6⟩ := hm.kept u e0 he0 hd0
  obtain rfl : e = e1 := Option.some.inj (he.symm.trans h3)
  refine ⟨F, hF, ?_, fun t ht => hm.done (h2 t ht)⟩
  have hfit : ∀ v a, Fits s u v a → Fits s' u v a := fun v a =>
    hm.fits (hm.still u (.inr ⟨e0, he0, hd0⟩))
  by_cases hc : isC u = true
  · rw [if_pos hc] at h1 ⊢
    have hp : u ≠ .proxy := by rintro rfl; cases hc
    rw [h5]
    exact ⟨h1.1.mono hfit, fun n v hn => h1.2.1 n v (by rw [← h6 n (.inl hp)]; exact hn),
      fun n hn => (h6 n (.inl hp)).trans (h1.2.2 n hn)⟩
  · rw [if_neg hc] at h1 ⊢
    intro n a hn
    by_cases hp : u = .proxy ∧ n = "ProxyFactory"
    · obtain ⟨rfl, rfl⟩ := hp
      have : ∀ p w, ∀ F ∈ finals p w .proxy, F.names.look "ProxyFactory" = none := by
        decide +kernel
      rw [this p w F hF] at hn
      cases hn
    · have : u ≠ .proxy ∨ n ≠ "ProxyFactory" := by
        by_cases hu : u = .proxy
        · exact .inr fun e => hp ⟨hu, e⟩
        · exact .inl hu
      rw [h6 n this]
      exact h1.mono hfit n a hn

theorem Within.congr {p w : Bool} {m : Mod} {s s' : St} (h : Within p w m s)
    (h1 : s'.mods = s.mods) (h2 : s'.stat = s.stat) (h3 : s'.runs = s.runs) :
    Within p w m s' := by
  have hm : Moves 0 s s' := .congr h1 h2 h3
  refine ⟨h.ctx.of_moves hm (fun u e he hd => ⟨e, by rw [← h1]; exact he, hd⟩) ?_ ?_, ?_, ?_, ?_, ?_, ?_⟩
  · rw [h1, h3]; exact h.ctx.valid
  · rw [h2, h3]; exact h.ctx.validS
  · rw [h1]; exact h.low
  · rw [h1]; exact h.here
  · rw [h1]; exact h.nowhere
  · rw [h1]; exact h.parent
  · intro hc
    obtain ⟨e, he, hv⟩ := h.pub hc
    exact ⟨e, by rw [h1]; exact he, hv⟩

theorem setMod_same (s : St) (m : Mod) (e : Option Entry) : (setMod s m e).mods m = e := by
  simp only [setMod, if_true]

/-- Writing one's own namespace. -/
theorem write {p w : Bool} {m : Mod} {s : St} (h : Within p w m s) (ns : Ns)
    (hv : ∀ x v, ns.look x = some v → OkV s.runs v) :
    Within p w m (setOwn m ns s) ∧ Moves m.rank s (setOwn m ns s) ∧
    own m (setOwn m ns s) = ns ∧ (setOwn m ns s).runs = s.runs := by
  cases hc : isC m with
  | true =>
    have hmods := h.nowhere hc
    have hs : setOwn m ns s = setStat s m ns := by simp only [setOwn, hc, if_true]
    rw [hs]
    have hm : Moves m.rank s (setStat s m ns) := by
      refine ⟨fun u hu => ⟨rfl, ?_⟩, fun u e he hd => ⟨e, he, hd, ?_, fun _ _ => rfl⟩,
        fun u => Nat.le_refl _, fun _ _ => rfl⟩
      · exact if_neg fun e => by subst e; exact Nat.lt_irrefl _ hu
      · exact if_neg fun e => by subst e; rw [hmods] at he; cases he
    refine ⟨⟨h.ctx.of_moves hm (fun u e he hd => ⟨e, he, hd⟩) h.ctx.valid ?_, h.low, ?_,
      fun _ => hmods, h.parent, h.pub⟩, hm, ?_, rfl⟩
    · intro u x v hx
      by_cases hu : u = m
      · simp only [setStat, if_pos hu] at hx
        exact hv x v hx
      · simp only [setStat, if_neg hu] at hx
        exact h.ctx.validS u x v hx
    · intro hf; rw [hc] at hf; cases hf
    · simp only [own, hc, setStat, if_true]
  | false =>
    obtain ⟨ns0, hmods⟩ := h.here hc
    have hs : setOwn m ns s = setMod s m (some ⟨false, ns⟩) := by
      simp only [setOwn, hc, Bool.false_eq_true, if_false, hmods]
    rw [hs]
    have hm : Moves m.rank s (setMod s m (some ⟨false, ns⟩)) := by
      refine ⟨fun u hu => ⟨?_, rfl⟩, fun u e he hd => ⟨e, ?_, hd, rfl, fun _ _ => rfl⟩,
        fun u => Nat.le_refl _, fun _ _ => rfl⟩
      · exact if_neg fun e => by subst e; exact Nat.lt_irrefl _ hu
      · have hu : u ≠ m := fun e => by subst e; rw [hmods] at he; cases he; cases hd
        simp only [setMod, if_neg hu, he]
    refine ⟨⟨h.ctx.of_moves hm (fun u e he hd => ?_) ?_ h.ctx.validS, ?_, fun _ => ⟨ns, ?_⟩, ?_,
      ?_, ?_⟩, hm, ?_, rfl⟩
    · by_cases hu : u = m
      · simp only [setMod, if_pos hu, Option.some.injEq] at he
        subst he; cases hd
      · simp only [setMod, if_neg hu] at he
        exact ⟨e, he, hd⟩
    · intro u e x v he hx
      by_cases hu : u = m
      · simp only [setMod, if_pos hu, Option.some.injEq] at he
        subst he
        exact hv x v hx
      · simp only [setMod, if_neg hu] at he
        exact h.ctx.valid u e x v he hx
    · intro u e hu he
      have hum : u ≠ m := fun e => by subst e; exact Nat.lt_irrefl _ hu
      simp only [setMod, if_neg hum] at he
      exact h.low u e hu he
    · simp only [setMod, if_true]
    · intro hf; rw [hc] at hf; cases hf
    · by_cases hp : Mod.pkg = m
      · simp only [setMod, if_pos hp, Option.isSome_some]
      · simp only [setMod, if_neg hp]
        exact h.parent
    · rintro rfl
      cases hc
    · simp only [own, hc, Bool.false_eq_true, if_false, setMod, if_true]

/-- The outcome of a statement: in the end one of `As` is known. -/
def Good (p w : Bool) (m : Mod) (s : St) (As : List Abs) (o : Out) : Prop :=
  Within p w m o.2 ∧ Moves m.rank s o.2 ∧ (o.1 = none → ∃ A ∈ As, Know o.2 m A)

theorem Good.fail {p w : Bool} {m : Mod} {s : St} {As : List Abs} (h : Within p w m s) (e : Err) :
    Good p w m s As (some e, s) := ⟨h, .rfl, fun h => nomatch h⟩

theorem Good.stay {p w : Bool} {m : Mod} {s : St} {As : List Abs} (h : Within p w m s) {A : Abs}
    (hA : A ∈ As) (hk : Know s m A) : Good p w m s As (none, s) :=
  ⟨h, .rfl, fun _ => ⟨A, hA, hk⟩⟩

theorem own_valid {p w : Bool} {m : Mod} {s : St} (h : Within p w m s) {x : Name} {v : Val}
    (hx : (own m s).look x = some v) : OkV s.runs v := by
  cases hc : isC m with
  | true =>
    simp only [own, hc, if_true] at hx
    exact h.ctx.validS m x v hx
  | false =>
    obtain ⟨ns, hm⟩ := h.here hc
    simp only [own, hc, Bool.false_eq_true, if_false, hm] at hx
    exact h.ctx.valid m _ x v hm hx

theorem Good.assign {p w : Bool} {m : Mod} {s : St} {As : List Abs} (h : Within p w m s) {A : Abs}
    (hk : Know s m A) {x : Name} {v : Val} {o : Option AV} (hA : A.put x o ∈ As)
    (hv : OkV s.runs v) (ho : ∀ a, o = some a → Fits s m v a) :
    Good p w m s As (Imp.assign m x v s) := by
  obtain ⟨h1, h2, h3, h4⟩ := write h ((own m s).set x v) fun y u hy => by
    rw [Ns.look_set] at hy
    split at hy
    · cases hy; exact hv
    · exact own_valid h hy
  refine ⟨h1, h2, fun _ => ⟨_, hA, ?_, fun t ht => ?_⟩⟩
  · show Sat (Fits (setOwn m _ s) m) (own m (setOwn m _ s)) _
    rw [h3]
    exact (hk.1.put ho).mono fun v a => h2.fits (congrFun h4 m)
  · refine h2.done (hk.2 t ?_)
    cases o <;> exact ht

theorem Good.assign? {p w : Bool} {m : Mod} {s : St} {As : List Abs} (h : Within p w m s) {A : Abs}
    (hk : Know s m A) {x : Name} {v : Option Val} {e : Err}
    (hA : ∀ v', v = some v' → OkV s.runs v' ∧
      ∃ o, A.put x o ∈ As ∧ ∀ a, o = some a → Fits s m v' a) :
    Good p w m s As (Imp.assign? m x v e s) := by
  cases v with
  | none => exact .fail h e
  | some v =>
    obtain ⟨h1, o, h2, h3⟩ := hA v rfl
    exact .assign h hk h2 h1 h3

theorem Good.weaken {p w : Bool} {m : Mod} {s : St} {As Bs : List Abs} {o : Out}
    (h : Good p w m s As o) (hs : ∀ A ∈ As, A ∈ Bs) : Good p w m s Bs o :=
  ⟨h.1, h.2.1, fun ho => by
    obtain ⟨A, hA, hk⟩ := h.2.2 ho
    exact ⟨A, hs A hA, hk⟩⟩

theorem Good.after {p w : Bool} {m : Mod} {s s' : St} {As : List Abs} {o : Out}
    (hm : Moves m.rank s s') (h : Good p w m s' As o) : Good p w m s As o :=
  ⟨h.1, hm.trans h.2.1, h.2.2⟩

/-! ### Nested imports -/

/-- What importing a module does. -/
structure Imports (p w : Bool) (t : Mod) (s : St) (o : Out) : Prop where
  ctx : Ctx p w o.2
  low : ∀ u e, u.rank ≤ t.rank → o.2.mods u = some e → e.done = true
  moves : Moves t.rank s o.2
  done : o.1 = none → Done o.2 t

/-- A function that imports modules. -/
structure Importer (p w : Bool) (f : Mod → St → Out) : Prop where
  run : ∀ t s, Ctx p w s → (∀ u e, u.rank ≤ t.rank → s.mods u = some e → e.done = true) →
    (s.mods .pkg).isSome = true → (t = .cchecker → Pub s) → Imports p w t s (f t s)
  present : ∀ t s, (s.mods t).isSome = true → (f t s).2 = s

theorem okImp_iff {m : Mod} {A : Abs} {t : Mod} (h : okImp m A t = true) :
    (t.rank < m.rank ∧ (t = .cchecker → m = .checker ∧ A.names.look "CheckerPublic" = some pub)) ∨
    (m = .cchecker ∧ t = .checker) := by
  simp only [okImp, Bool.or_eq_true, Bool.and_eq_true, decide_eq_true_eq] at h
  rcases h with ⟨h1, h2⟩ | ⟨h1, h2⟩
  · refine .inl ⟨h1, fun ht => ?_⟩
    rcases h2 with h2 | h2
    · exact absurd ht h2
    · exact h2
  · exact .inr ⟨h1, h2⟩

theorem rank_pkg (u : Mod) : u.rank ≤ Mod.pkg.rank := by cases u <;> decide

/-- After an import the modules known to be finished include the one imported. -/
theorem call {p w : Bool} {f : Mod → St → Out} (hf : Importer p w f) {m : Mod} {s : St}
    (h : Within p w m s) {A : Abs} (hk : Know s m A) {t : Mod} (ht : okImp m A t = true) :
    Within p w m (f t s).2 ∧ Moves m.rank s (f t s).2 ∧ Know (f t s).2 m A ∧
    ((f t s).1 = none → Know (f t s).2 m (A.learn m t) ∧
      (Done (f t s).2 t ∨ (m = .cchecker ∧ t = .checker))) := by
  rcases okImp_iff ht with ⟨hr, hcc⟩ | ⟨rfl, rfl⟩
  · have hI := hf.run t s h.ctx (fun u e hu => h.low u e (Nat.lt_of_le_of_lt hu hr)) h.parent ?_
    · have hmv : Moves m.rank s (f t s).2 := hI.moves.mono (Nat.le_of_lt hr)
      have hfr := hI.moves.frame
      have hown : own m (f t s).2 = own m s := by
        simp only [own, (hfr m hr).1, (hfr m hr).2]
      have hk' : Know (f t s).2 m A := ⟨by rw [hown]; exact hk.1.mono fun v a => hI.moves.fits (hI.moves.still m (.inl hr)), fun u hu => hmv.done (hk.2 u hu)⟩
      refine ⟨⟨hI.ctx, fun u e hu he => ?_, ?_, ?_, ?_, ?_⟩, hmv, hk', fun ho => ⟨⟨?_, ?_⟩, .inl (hI.done ho)⟩⟩
      · by_cases hut : u.rank ≤ t.rank
        · exact hI.low u e hut he
        · rw [(hfr u (Nat.lt_of_not_le hut)).1] at he
          exact h.low u e hu he
      · intro hc
        rw [(hfr m hr).1]
        exact h.here hc
      · intro hc
        rw [(hfr m hr).1]
        exact h.nowhere hc
      · rw [(hfr .pkg (Nat.lt_of_lt_of_le hr (rank_pkg m))).1]
        exact h.parent
      · rintro rfl
        obtain ⟨e, he, hp⟩ := h.pub rfl
        refine ⟨e, ?_, hp⟩
        rw [(hfr .checker (Nat.lt_trans hr (by decide))).1]
        exact he
      · have : (A.learn m t).names = A.names := by simp only [Abs.learn]; split <;> rfl
        rw [this]
        exact hk'.1
      · intro u hu
        simp only [Abs.learn, if_pos hr] at hu
        rcases List.mem_cons.1 hu with rfl | hu
        · exact hI.done ho
        · exact hk'.2 u hu
    · intro htc
      obtain ⟨rfl, hn⟩ := hcc htc
      obtain ⟨ns, hns⟩ := h.here rfl
      refine ⟨_, hns, ?_⟩
      obtain ⟨v, h1, h2⟩ := hk.1 _ _ hn
      simp only [own, isC, Bool.false_eq_true, if_false, hns] at h1
      exact ⟨v, h1, h2.1⟩
  · obtain ⟨e, he, -⟩ := h.pub rfl
    have hs := hf.present .checker s (by rw [he]; rfl)
    rw [hs]
    refine ⟨h, .rfl, hk, fun _ => ⟨?_, .inr ⟨rfl, rfl⟩⟩⟩
    have : A.learn .cchecker .checker = A := by
      simp only [Abs.learn]
      exact if_neg (by decide)
    rw [this]
    exact hk

/-- A name taken from an imported module. -/
theorem taken {p w : Bool} {m : Mod} {s : St} (h : Within p w m s) {t : Mod} {n : Name} {v : Val}
    (ht : Done s t ∨ (m = .cchecker ∧ t = .checker)) (hp : peek s t n = some v) :
    OkV s.runs v ∧ ∃ o ∈ results p w m t n, ∀ a, o = some a → Fits s m v a := by
  by_cases hmt : m = .cchecker ∧ t = .checker
  · obtain ⟨e, he, v0, hpub, hv0⟩ := h.pub hmt.1
    have hp' : e.ns.look n = some v := by
      simpa only [peek, hmt.2, he] using hp
    refine ⟨h.ctx.valid .checker e n v he hp', _, by simp only [results, if_pos hmt]; exact List.mem_cons_self, fun a ha => ?_⟩
    split at ha
    · rename_i hn
      subst hn
      rw [hp'] at hpub
      cases ha
      cases hpub
      exact ⟨hv0, .inl ⟨by rw [hmt.1]; rfl, rfl⟩⟩
    · cases ha
  · have hd : Done s t := ht.resolve_right hmt
    obtain ⟨e, he, hdone⟩ := hd
    have hp' : e.ns.look n = some v := by simpa only [peek, he] using hp
    obtain ⟨F, hF, h1, -⟩ := h.ctx.inv t e he hdone
    refine ⟨h.ctx.valid t e n v he hp', F.names.look n, ?_, fun a ha => ?_⟩
    · simp only [results, if_neg hmt]
      exact mem_uniq (List.mem_map.2 ⟨F, hF, rfl⟩)
    · by_cases hc : isC t = true
      · rw [if_pos hc] at h1
        obtain ⟨hn, hv⟩ := h1.2.1 n v hp'
        obtain ⟨v0, hv0, h3, h4⟩ := h1.1 n a ha
        rw [hv] at hv0
        cases hv0
        refine ⟨h3, .inr ?_⟩
        rcases h4 with ⟨-, rfl⟩ | h4
        · have : ∀ p w t, isC t = true → ∀ F ∈ finals p w t, ∀ n ∈ exports t,
              F.names.look n ≠ some pub := by
            intro p w t
            cases t <;> revert p w <;> decide +kernel
          exact absurd ha (this p w t hc F hF n hn)
        · exact h4.of_done ⟨e, he, hdone⟩ m
      · rw [if_neg hc] at h1
        obtain ⟨v0, hv0, h3, h4⟩ := h1 n a ha
        rw [hp'] at hv0
        cases hv0
        refine ⟨h3, .inr ?_⟩
        rcases h4 with ⟨hc', -⟩ | h4
        · exact absurd hc' hc
        · exact h4.of_done ⟨e, he, hdone⟩ m

/-! ### Statements -/

theorem Sat.flag {s : St} {m : Mod} {ns : Ns} {A : ANs} (h : Sat (Fits s m) ns A) {x : Name} {b : Bool}
    (hx : A.look x = some (.flag b)) : ns.look x = some (.flag b) := by
  obtain ⟨v, h1, h2, -⟩ := h x _ hx
  cases v <;> simp only [erase, reduceCtorEq, AV.flag.injEq] at h2
  rw [h1, h2]

theorem Sat.module {s : St} {m : Mod} {ns : Ns} {A : ANs} (h : Sat (Fits s m) ns A) {x : Name} {t : Mod}
    (hx : A.look x = some (.module t)) : ns.look x = some (.module t) := by
  obtain ⟨v, h1, h2, -⟩ := h x _ hx
  cases v <;> simp only [erase, reduceCtorEq, AV.module.injEq] at h2
  rw [h1, h2]

theorem runs_pos_stmt {p w : Bool} {f : Mod → St → Out} (hf : Importer p w f) {m : Mod} {s : St}
    (h : Within p w m s) (hr : 1 ≤ s.runs m) {A : Abs} (hk : Know s m A) {st : Stmt}
    (hok : okStmt m A st = true) :
    Good p w m s (absStmt p w m A st) (runStmt f m st s) := by
  have hloc : ∀ {y : Name} {v : Val}, (own m s).look y = some v → OkV s.runs v ∧
      ∀ a, A.names.look y = some a → Fits s m v a := by
    intro y v hy
    refine ⟨own_valid h hy, fun a ha => ?_⟩
    obtain ⟨v0, h1, h2⟩ := hk.1 y a ha
    rw [hy] at h1
    cases h1
    exact h2
  cases st with
  | work uses =>
    simp only [runStmt]
    split
    · exact .stay h List.mem_cons_self hk
    · exact .fail h _
  | optional uses =>
    simp only [runStmt]
    split
    · exact .stay h List.mem_cons_self hk
    · exact .fail h _
  | const x b => exact .assign h hk List.mem_cons_self trivial fun a ha => by cases ha; exact ⟨rfl, .inr trivial⟩
  | new x what uses =>
    simp only [runStmt]
    split
    · exact .assign h hk List.mem_cons_self ⟨hr, Nat.le_refl _⟩ fun a ha => by
        cases ha; exact ⟨rfl, .inr ⟨.inl rfl, rfl⟩⟩
    · exact .fail h _
  | static x => exact .assign h hk List.mem_cons_self trivial fun a ha => by cases ha; exact ⟨rfl, .inr trivial⟩
  | alias x y =>
    exact .assign? h hk fun v hv => ⟨(hloc hv).1, _, List.mem_cons_self, (hloc hv).2⟩
  | getOf x y =>
    refine .assign? h hk fun v hv => ?_
    cases hy : (own m s).look y with
    | none => rw [hy] at hv; cases hv
    | some d =>
      rw [hy] at hv
      cases hv
      refine ⟨(hloc hy).1, _, List.mem_cons_self, fun a ha => ?_⟩
      cases hl : A.names.look y with
      | none => rw [hl] at ha; cases ha
      | some b =>
        rw [hl] at ha
        cases ha
        obtain ⟨h1, h2⟩ := (hloc hy).2 b hl
        refine ⟨congrArg AV.get h1, .inr (h2.resolve_left fun h => ?_)⟩
        have hok' : isC m = false := by simpa only [okStmt, Bool.not_eq_true'] using hok
        rw [h.1] at hok'
        cases hok'
  | notOf x y =>
    simp only [runStmt]
    split
    · rename_i b hy
      refine .assign h hk List.mem_cons_self trivial fun a ha => ?_
      split at ha
      · rename_i c hc
        have := ((hloc hy).2 _ hc).1
        cases this
        cases ha
        exact ⟨rfl, .inr trivial⟩
      · cases ha
    · exact .fail h _
  | del x =>
    obtain ⟨h1, h2, h3, h4⟩ := write h ((own m s).drop x) fun y u hy => by
      rw [Ns.look_drop] at hy
      split at hy
      · cases hy
      · exact own_valid h hy
    refine ⟨h1, h2, fun _ => ⟨_, List.mem_cons_self, ?_, fun t ht => h2.done (hk.2 t ht)⟩⟩
    show Sat (Fits (setOwn m _ s) m) (own m (setOwn m _ s)) _
    rw [h3]
    exact hk.1.dropped.mono fun v a => h2.fits (congrFun h4 m)
  | imp t =>
    obtain ⟨h1, h2, -, h4⟩ := call hf h hk hok
    exact ⟨h1, h2, fun ho => ⟨_, List.mem_cons_self, (h4 ho).1⟩⟩
  | frm t n x =>
    obtain ⟨h1, h2, -, h4⟩ := call hf h hk hok
    simp only [runStmt]
    split
    · rename_i s' hs
      rw [hs] at h1 h2 h4
      obtain ⟨h5, h6⟩ := h4 rfl
      refine .after h2 (.assign? h1 h5 fun v hv => ?_)
      obtain ⟨h7, o, h8, h9⟩ := taken h1 h6 hv
      exact ⟨h7, o, List.mem_map.2 ⟨o, h8, rfl⟩, h9⟩
    · rename_i hne
      refine ⟨h1, h2, fun ho => ?_⟩
      exact (hne _ (Prod.ext ho rfl)).elim
  | attr t n x =>
    have ht : Done s t ∨ (m = .cchecker ∧ t = .checker) := by
      simp only [okStmt, Bool.or_eq_true, Bool.and_eq_true, decide_eq_true_eq] at hok
      exact hok.imp (hk.2 t) id
    refine .assign? h hk fun v hv => ?_
    obtain ⟨h7, o, h8, h9⟩ := taken h ht hv
    exact ⟨h7, o, List.mem_map.2 ⟨o, h8, rfl⟩, h9⟩
  | sub t x =>
    obtain ⟨h1, h2, -, h4⟩ := call hf h hk hok
    simp only [runStmt]
    split
    · rename_i s' hs
      rw [hs] at h1 h2 h4
      exact .after h2 (.assign h1 (h4 rfl).1 List.mem_cons_self trivial fun a ha => by cases ha; exact ⟨rfl, .inr trivial⟩)
    · rename_i hne
      refine ⟨h1, h2, fun ho => ?_⟩
      exact (hne _ (Prod.ext ho rfl)).elim
  | setattr x n y =>
    simp only [okStmt, Bool.and_eq_true, decide_eq_true_eq] at hok
    obtain ⟨⟨⟨hx, rfl⟩, hl⟩, rfl⟩ := hok
    obtain ⟨e, he, hd⟩ := hk.2 _ hl
    simp only [runStmt]
    rw [hk.1.module hx]
    cases hy : (own .checker s).look y with
    | none => exact .fail h _
    | some v =>
      simp only [he]
      have hm : Moves Mod.checker.rank s (setMod s .proxy (some { e with ns := e.ns.set "ProxyFactory" v })) := by
        refine ⟨fun u hu => ⟨if_neg ?_, rfl⟩, fun u e0 he0 hd0 => ?_, fun u => Nat.le_refl _,
          fun _ _ => rfl⟩
        · rintro rfl
          exact absurd hu (by decide)
        · by_cases hu : u = .proxy
          · subst hu
            obtain rfl : e = e0 := Option.some.inj (he.symm.trans he0)
            refine ⟨_, setMod_same _ _ _, hd, rfl, fun n hn => ?_⟩
            show (e.ns.set "ProxyFactory" v).look n = _
            rw [Ns.look_set]
            exact if_neg fun h => hn.elim (fun h => h rfl) fun h' => h' h.symm
          · exact ⟨e0, by simp only [setMod, if_neg hu, he0], hd0, rfl, fun _ _ => rfl⟩
      have hother : ∀ u, u ≠ Mod.proxy → (setMod s .proxy (some { e with ns := e.ns.set "ProxyFactory" v })).mods u = s.mods u :=
        fun u hu => if_neg hu
      refine ⟨⟨h.ctx.of_moves hm (fun u e0 he0 hd0 => ?_) (fun u e0 z v0 he0 hz => ?_) h.ctx.validS, ?_, ?_, ?_, ?_, ?_⟩, hm, fun _ => ⟨A, List.mem_cons_self, ?_, fun t ht => hm.done (hk.2 t ht)⟩⟩
      · by_cases hu : u = .proxy
        · subst hu; exact ⟨e, he, hd⟩
        · rw [hother u hu] at he0
          exact ⟨e0, he0, hd0⟩
      · by_cases hu : u = .proxy
        · subst hu
          have : (setMod s .proxy (some { e with ns := e.ns.set "ProxyFactory" v })).mods .proxy = some { e with ns := e.ns.set "ProxyFactory" v } := setMod_same _ _ _
          rw [this] at he0
          cases he0
          have hz' : (e.ns.set "ProxyFactory" v).look z = some v0 := hz
          rw [Ns.look_set] at hz'
          split at hz'
          · cases hz'; exact (hloc hy).1
          · exact h.ctx.valid _ e z v0 he hz'
        · rw [hother u hu] at he0
          exact h.ctx.valid u e0 z v0 he0 hz
      · intro u e0 hu he0
        by_cases hup : u = .proxy
        · subst hup
          have : (setMod s .proxy (some { e with ns := e.ns.set "ProxyFactory" v })).mods .proxy = some { e with ns := e.ns.set "ProxyFactory" v } := setMod_same _ _ _
          rw [this] at he0
          cases he0
          exact hd
        · rw [hother u hup] at he0
          exact h.low u e0 hu he0
      · intro _
        rw [hother _ (by decide)]
        exact h.here rfl
      · intro hc; cases hc
      · rw [hother _ (by decide)]
        exact h.parent
      · intro hc; cases hc
      · have : own .checker (setMod s .proxy (some { e with ns := e.ns.set "ProxyFactory" v })) = own .checker s := by
          simp only [own, isC, Bool.false_eq_true, if_false]
          rw [hother _ (by decide)]
        rw [this]
        exact hk.1.mono fun v a => hm.fits rfl
  | fill x what uses =>
    simp only [runStmt]
    split
    · split
      · exact ⟨h.congr rfl rfl rfl, .congr rfl rfl rfl, fun _ => ⟨A, List.mem_cons_self, hk.congr rfl rfl rfl⟩⟩
      · exact .fail h _
    · exact .fail h _
  | tryImp t fl =>
    obtain ⟨h1, h2, h3, h4⟩ := call hf h hk hok
    simp only [runStmt]
    split
    · rename_i s' hs
      rw [hs] at h1 h2 h4
      exact ⟨h1, h2, fun _ => ⟨_, List.mem_cons_of_mem _ List.mem_cons_self, (h4 rfl).1⟩⟩
    · rename_i e s' hs
      rw [hs] at h1 h2 h3
      split
      · exact .after h2 (.assign h1 h3 List.mem_cons_self trivial fun a ha => by cases ha; exact ⟨rfl, .inr trivial⟩)
      · exact ⟨h1, h2, fun ho => nomatch ho⟩
  | tryFrm t n x fl =>
    obtain ⟨h1, h2, h3, h4⟩ := call hf h hk hok
    simp only [runStmt]
    split
    · rename_i s' hs
      rw [hs] at h1 h2 h3 h4
      obtain ⟨h5, h6⟩ := h4 rfl
      split
      · rename_i v hv
        obtain ⟨h7, o, h8, h9⟩ := taken h1 h6 hv
        exact .after h2 (.assign h1 h5 (List.mem_cons_of_mem _ (List.mem_map.2 ⟨o, h8, rfl⟩)) h7 h9)
      · exact .after h2 (.assign h1 h3 List.mem_cons_self trivial fun a ha => by cases ha; exact ⟨rfl, .inr trivial⟩)
    · rename_i e s' hs
      rw [hs] at h1 h2 h3
      split
      · exact .after h2 (.assign h1 h3 List.mem_cons_self trivial fun a ha => by cases ha; exact ⟨rfl, .inr trivial⟩)
      · exact ⟨h1, h2, fun ho => nomatch ho⟩

theorem struck_good {p w : Bool} {m : Mod} {s : St} (h : Within p w m s) {A : Abs} (hk : Know s m A)
    (st : Stmt) (e : Err) : Good p w m s (absStmt p w m A st) (struck m st e s) := by
  cases st with
  | optional uses =>
    simp only [struck]
    split
    · exact .stay h List.mem_cons_self hk
    · exact .fail h _
  | tryImp t fl =>
    simp only [struck]
    split
    · exact .assign h hk List.mem_cons_self trivial fun a ha => by cases ha; exact ⟨rfl, .inr trivial⟩
    · exact .fail h _
  | tryFrm t n x fl =>
    simp only [struck]
    split
    · exact .assign h hk List.mem_cons_self trivial fun a ha => by cases ha; exact ⟨rfl, .inr trivial⟩
    · exact .fail h _
  | _ => exact .fail h _

theorem holds_of_abs {s : St} {m : Mod} {ns : Ns} {A : ANs} (h : Sat (Fits s m) ns A) {g : List (Name × Bool)} {b : Bool}
    (hg : absHolds A g = some b) : holds ns g = some b := by
  induction g with
  | nil => exact hg
  | cons q r ih =>
    obtain ⟨x, c⟩ := q
    simp only [absHolds] at hg
    split at hg
    · rename_i d hd
      simp only [holds, h.flag hd]
      split at hg
      · rename_i hdc
        rw [if_pos hdc]
        exact ih hg
      · rename_i hdc
        rw [if_neg hdc]
        exact hg
    · cases hg

/-- The lines of a body. -/
theorem lines_good {env : Env} {f : Mod → St → Out} (hf : Importer env.pure env.watch f) {m : Mod}
    {goal : Abs → Bool} (ls : List Line) : ∀ {s : St} {A : Abs},
    Within env.pure env.watch m s → 1 ≤ s.runs m → Know s m A →
    safe env.pure env.watch m goal ls A = true →
    Within env.pure env.watch m (runLines env f m ls s).2 ∧
    Moves m.rank s (runLines env f m ls s).2 ∧
    ((runLines env f m ls s).1 = none →
      ∃ A', goal A' = true ∧ Know (runLines env f m ls s).2 m A') := by
  induction ls with
  | nil => exact fun h _ hk hs => ⟨h, .rfl, fun _ => ⟨_, hs, hk⟩⟩
  | cons l r ih =>
    intro s A h hr hk hs
    have step : ∀ {o : Out} {As : List Abs}, Good env.pure env.watch m s As o →
        (∀ A' ∈ As, safe env.pure env.watch m goal r A' = true) →
        ∀ {o' : Out}, (match o with | (none, s') => runLines env f m r s' | x => x) = o' →
        Within env.pure env.watch m o'.2 ∧ Moves m.rank s o'.2 ∧
        (o'.1 = none → ∃ A', goal A' = true ∧ Know o'.2 m A') := by
      intro o As hg hall o' ho'
      obtain ⟨e, s1⟩ := o
      cases e with
      | some e =>
        subst ho'
        exact ⟨hg.1, hg.2.1, fun h => nomatch h⟩
      | none =>
        subst ho'
        obtain ⟨A', hA', hk'⟩ := hg.2.2 rfl
        obtain ⟨h1, h2, h3⟩ := ih hg.1 (Nat.le_trans hr (hg.2.1.runs m)) hk' (hall A' hA')
        exact ⟨h1, hg.2.1.trans h2, h3⟩
    have run : okStmt m A l.stmt = true → holds (own m s) l.guard = some true →
        Good env.pure env.watch m s (absStmt env.pure env.watch m A l.stmt) (runLine env f m l s) := by
      intro hok hh
      have hst : Within env.pure env.watch m { s with steps := s.steps + 1 } := h.congr rfl rfl rfl
      have hkt : Know { s with steps := s.steps + 1 } m A := hk.congr rfl rfl rfl
      simp only [runLine, hh]
      split
      · exact Good.after (s' := { s with steps := s.steps + 1 }) (.congr rfl rfl rfl) (struck_good hst hkt _ _)
      · exact Good.after (s' := { s with steps := s.steps + 1 }) (.congr rfl rfl rfl) (runs_pos_stmt hf hst hr hkt hok)
    have skip : holds (own m s) l.guard = some false →
        Good env.pure env.watch m s [A] (runLine env f m l s) := by
      intro hh
      simp only [runLine, hh]
      exact .stay h List.mem_cons_self hk
    simp only [safe] at hs
    split at hs
    · rename_i hg
      simp only [Bool.and_eq_true, List.all_eq_true] at hs
      exact step (run hs.1 (holds_of_abs hk.1 hg)) hs.2 rfl
    · rename_i hg
      exact step (skip (holds_of_abs hk.1 hg)) (fun A' hA' => by
        rw [List.mem_singleton.1 hA']; exact hs) rfl
    · simp only [Bool.and_eq_true, List.all_eq_true] at hs
      cases hh : holds (own m s) l.guard with
      | none =>
        refine step (As := []) ?_ (fun _ h => nomatch h) rfl
        simp only [runLine, hh]
        exact .fail h _
      | some b =>
        cases b with
        | true => exact step (run hs.2.1 hh) hs.2.2 rfl
        | false =>
          exact step (skip hh) (fun A' hA' => by rw [List.mem_singleton.1 hA']; exact hs.1) rfl

/-! ### Loading and importing -/

theorem rank_inj {u m : Mod} (h : u.rank = m.rank) : u = m := by
  revert h
  cases u <;> cases m <;> decide

theorem ANs.look_mem {A : ANs} {x : Name} {a : AV} (h : A.look x = some a) : (x, a) ∈ A := by
  induction A with
  | nil => cases h
  | cons q r ih =>
    obtain ⟨z, v⟩ := q
    simp only [ANs.look] at h
    split at h
    · rename_i hz
      subst hz
      cases h
      exact List.mem_cons_self
    · exact List.mem_cons_of_mem _ (ih h)

theorem Sat.of_covers {R : Val → AV → Prop} {ns : Ns} {A F : Abs} (h : Sat R ns A.names)
    (hc : covers A F = true) : Sat R ns F.names := by
  simp only [covers, Bool.and_eq_true, List.all_eq_true, decide_eq_true_eq] at hc
  exact fun x a hx => h x a (hc.1 _ (ANs.look_mem hx))

theorem Ns.only_mem {l : List Name} {ns : Ns} {n : Name} {v : Val}
    (h : (ns.only l).look n = some v) : n ∈ l := by
  induction ns with
  | nil => cases h
  | cons q r ih =>
    obtain ⟨x, u⟩ := q
    simp only [Ns.only] at h
    split at h
    · rename_i hx
      simp only [Ns.look] at h
      split at h
      · rename_i hxn
        subst hxn
        exact hx
      · exact ih h
    · exact ih h

/-- The end of a body: the module is there, finished. -/
theorem finish {p w : Bool} {m : Mod} {s : St} (h : Within p w m s) {A : Abs} (hk : Know s m A)
    (hA : (finals p w m).any (covers A) = true) {ns : Ns}
    (hns : (isC m = true ∧ ns = (s.stat m).only (exports m)) ∨ (isC m = false ∧ ns = own m s)) :
    Ctx p w (setMod s m (some ⟨true, ns⟩)) ∧ Moves m.rank s (setMod s m (some ⟨true, ns⟩)) := by
  have hnd : ∀ e, s.mods m = some e → e.done = true → False := by
    intro e he hd
    cases hc : isC m with
    | true => rw [h.nowhere hc] at he; cases he
    | false =>
      obtain ⟨ns0, h0⟩ := h.here hc
      rw [h0] at he
      cases he
      cases hd
  have hother : ∀ u, u ≠ m → (setMod s m (some ⟨true, ns⟩)).mods u = s.mods u := fun u hu => if_neg hu
  have hm : Moves m.rank s (setMod s m (some ⟨true, ns⟩)) := by
    refine ⟨fun u hu => ⟨hother u fun e => by subst e; exact Nat.lt_irrefl _ hu, rfl⟩,
      fun u e he hd => ⟨e, ?_, hd, rfl, fun _ _ => rfl⟩, fun u => Nat.le_refl _, fun _ _ => rfl⟩
    rw [hother u fun e' => by subst e'; exact hnd e he hd]
    exact he
  have hnsv : ∀ x v, ns.look x = some v → (own m s).look x = some v := by
    intro x v hx
    rcases hns with ⟨hc, rfl⟩ | ⟨hc, rfl⟩
    · simp only [own, hc, if_true]
      exact Ns.look_only _ _ _ _ hx
    · exact hx
  refine ⟨⟨fun u e he hd => ?_, fun u e x v he hx => ?_, h.ctx.validS⟩, hm⟩
  · by_cases hu : u = m
    · subst hu
      rw [setMod_same] at he
      cases he
      rw [List.any_eq_true] at hA
      obtain ⟨F, hF, hcov⟩ := hA
      refine ⟨F, hF, ?_, fun t ht => hm.done (hk.2 t ?_)⟩
      · rcases hns with ⟨hc, rfl⟩ | ⟨hc, rfl⟩
        · rw [if_pos hc]
          have h1 := hk.1
          simp only [own, hc, if_true] at h1
          exact ⟨(h1.of_covers hcov).mono fun v a => hm.fits rfl,
            fun n v hn => ⟨Ns.only_mem hn, Ns.look_only _ _ _ _ hn⟩,
            fun n hn => Ns.look_only_mem hn _⟩
        · rw [if_neg (by rw [hc]; exact Bool.false_ne_true)]
          exact (hk.1.of_covers hcov).mono fun v a => hm.fits rfl
      · simp only [covers, Bool.and_eq_true, List.all_eq_true, decide_eq_true_eq] at hcov
        exact hcov.2 t ht
    · rw [hother u hu] at he
      obtain ⟨F, hF, h1, h2⟩ := h.ctx.inv u e he hd
      have hfit : ∀ v a, Fits s u v a → Fits (setMod s m (some ⟨true, ns⟩)) u v a := fun v a =>
        hm.fits rfl
      refine ⟨F, hF, ?_, fun t ht => hm.done (h2 t ht)⟩
      by_cases hc : isC u = true
      · rw [if_pos hc] at h1 ⊢
        exact ⟨h1.1.mono hfit, h1.2⟩
      · rw [if_neg hc] at h1 ⊢
        exact h1.mono hfit
  · by_cases hu : u = m
    · subst hu
      rw [setMod_same] at he
      cases he
      exact own_valid h (hnsv x v hx)
    · rw [hother u hu] at he
      exact h.ctx.valid u e x v he hx

theorem started_runs (s : St) (m : Mod) : ∀ u, s.runs u ≤ (started s m).runs u := by
  intro u
  simp only [started]
  split
  · exact Nat.le_succ _
  · exact Nat.le_refl _

theorem started_still {s : St} {m : Mod} (habs : s.mods m = none) (u : Mod)
    (hu : m.rank < u.rank ∨ Done s u) : (started s m).runs u = s.runs u := by
  refine if_neg fun e => ?_
  subst e
  rcases hu with hu | ⟨e, he, -⟩
  · exact Nat.lt_irrefl _ hu
  · rw [habs] at he
    cases he

theorem load_sound {env : Env} {f : Mod → St → Out} (hf : Importer env.pure env.watch f) {t : Mod}
    {s : St} (habs : s.mods t = none) (hctx : Ctx env.pure env.watch s)
    (hlow : ∀ u e, u.rank ≤ t.rank → s.mods u = some e → e.done = true)
    (hpar : t ≠ .pkg → (s.mods .pkg).isSome = true) (hpub : t = .cchecker → Pub s) :
    Imports env.pure env.watch t s (load env f t s) := by
  have hrun : 1 ≤ (started s t).runs t := by
    simp only [started, if_true]
    exact Nat.le_add_left _ _
  have hm0 : Moves t.rank s (started s t) :=
    ⟨fun _ _ => ⟨rfl, rfl⟩, fun u e he hd => ⟨e, he, hd, rfl, fun _ _ => rfl⟩, started_runs s t,
      started_still habs⟩
  have hctx1 : Ctx env.pure env.watch (started s t) :=
    hctx.of_moves hm0 (fun u e he hd => ⟨e, he, hd⟩) (fun u e x v he hx => (hctx.valid u e x v he hx).mono (started_runs s t))
      fun u x v hx => (hctx.validS u x v hx).mono (started_runs s t)
  have hsafe : safe env.pure env.watch t (fun A => (finals env.pure env.watch t).any (covers A))
      (body env.pure env.watch t) ⟨[], []⟩ = true := safe_all _ _ _
  cases hc : isC t with
  | true =>
    simp only [load, hc, if_true]
    have hpkg : t ≠ .pkg := by rintro rfl; cases hc
    split
    · have hw : Within env.pure env.watch t (started s t) :=
        ⟨hctx1, fun u e hu he => hlow u e (Nat.le_of_lt hu) he,
          (fun h => by rw [hc] at h; cases h), fun _ => habs, hpar hpkg, hpub⟩
      have hk : Know (started s t) t ⟨[], []⟩ := ⟨.nil _, fun _ h => nomatch h⟩
      have hm1 := hm0
      obtain ⟨h1, h2, h3⟩ := lines_good hf (body env.pure env.watch t) hw hrun hk hsafe
      have hlow2 : ∀ {s2 : St}, Within env.pure env.watch t s2 → ∀ u e, u.rank ≤ t.rank →
          s2.mods u = some e → e.done = true := by
        intro s2 hw2 u e hu he
        rcases Nat.lt_or_eq_of_le hu with hu | hu
        · exact hw2.low u e hu he
        · rw [rank_inj hu, hw2.nowhere hc] at he
          cases he
      split
      · rename_i s2 hs2
        rw [hs2] at h1 h2 h3
        obtain ⟨A, hA, hkA⟩ := h3 rfl
        obtain ⟨h4, h5⟩ := finish h1 hkA hA (.inl ⟨hc, rfl⟩)
        refine ⟨h4, fun u e hu he => ?_, (hm1.trans h2).trans h5, fun _ => ⟨_, setMod_same _ _ _, rfl⟩⟩
        by_cases hut : u = t
        · subst hut
          have he' : some (⟨true, (s2.stat u).only (exports u)⟩ : Entry) = some e :=
            (setMod_same s2 u _).symm.trans he
          cases he'
          rfl
        · exact hlow2 h1 u e hu ((if_neg hut : (setMod s2 t _).mods u = _).symm.trans he)
      · rename_i hne
        refine ⟨h1.ctx, hlow2 h1, hm1.trans h2, fun ho => ?_⟩
        exact (hne _ (Prod.ext ho rfl)).elim
    · exact ⟨hctx, hlow, .rfl, fun h => nomatch h⟩
  | false =>
    simp only [load, hc, Bool.false_eq_true, if_false]
    have hother : ∀ (s0 : St) (e : Option Entry) (u : Mod), u ≠ t → (setMod s0 t e).mods u = s0.mods u :=
      fun _ _ u hu => if_neg hu
    have hm1 : Moves t.rank s (setMod (started s t) t (some ⟨false, []⟩)) := by
      refine ⟨fun u hu => ⟨hother _ _ u fun e => by subst e; exact Nat.lt_irrefl _ hu, rfl⟩,
        fun u e he hd => ⟨e, ?_, hd, rfl, fun _ _ => rfl⟩, started_runs s t, started_still habs⟩
      rw [hother _ _ u fun e' => by subst e'; rw [habs] at he; cases he]
      exact he
    have hw : Within env.pure env.watch t (setMod (started s t) t (some ⟨false, []⟩)) := by
      refine ⟨hctx.of_moves hm1 (fun u e he hd => ?_) (fun u e x v he hx => ?_) hctx1.validS,
        fun u e hu he => ?_, fun _ => ⟨[], setMod_same _ _ _⟩, (fun h => by rw [hc] at h; cases h), ?_,
        (fun h => by subst h; cases hc)⟩
      · by_cases hu : u = t
        · subst hu
          rw [setMod_same] at he
          cases he
          cases hd
        · rw [hother _ _ u hu] at he
          exact ⟨e, he, hd⟩
      · by_cases hu : u = t
        · subst hu
          rw [setMod_same] at he
          cases he
          cases hx
        · rw [hother _ _ u hu] at he
          exact hctx1.valid u e x v he hx
      · rw [hother _ _ u fun e => by subst e; exact Nat.lt_irrefl _ hu] at he
        exact hlow u e (Nat.le_of_lt hu) he
      · by_cases hp : Mod.pkg = t
        · rw [hp, setMod_same]
          rfl
        · rw [hother _ _ _ hp]
          exact hpar fun e => hp e.symm
    have hk : Know (setMod (started s t) t (some ⟨false, []⟩)) t ⟨[], []⟩ :=
      ⟨.nil _, fun _ h => nomatch h⟩
    obtain ⟨h1, h2, h3⟩ := lines_good hf (body env.pure env.watch t) hw hrun hk hsafe
    split
    · rename_i s2 hs2
      rw [hs2] at h1 h2 h3
      obtain ⟨A, hA, hkA⟩ := h3 rfl
      obtain ⟨h4, h5⟩ := finish h1 hkA hA (.inr ⟨hc, rfl⟩)
      refine ⟨h4, fun u e hu he => ?_, (hm1.trans h2).trans h5, fun _ => ⟨_, setMod_same _ _ _, rfl⟩⟩
      by_cases hut : u = t
      · subst hut
        have he' : some (⟨true, own u s2⟩ : Entry) = some e := (setMod_same s2 u _).symm.trans he
        cases he'
        rfl
      · have he' : s2.mods u = some e := (hother s2 _ u hut).symm.trans he
        exact h1.low u e (Nat.lt_of_le_of_ne hu fun e => hut (rank_inj e)) he'
    · rename_i e s2 hs2
      rw [hs2] at h1 h2
      have hgone : s2.mods t = none ∨ ∃ ns, s2.mods t = some ⟨false, ns⟩ := .inr (h1.here hc)
      have hm3 : Moves t.rank s2 (setMod s2 t none) := by
        refine ⟨fun u hu => ⟨hother _ _ u fun e => by subst e; exact Nat.lt_irrefl _ hu, rfl⟩,
          fun u e he hd => ⟨e, ?_, hd, rfl, fun _ _ => rfl⟩, fun u => Nat.le_refl _, fun _ _ => rfl⟩
        rw [hother _ _ u fun e' => by
          subst e'
          obtain ⟨ns, h0⟩ := h1.here hc
          rw [h0] at he
          cases he
          cases hd]
        exact he
      have hback : ∀ {u : Mod} {e : Entry}, (setMod s2 t none).mods u = some e → u ≠ t ∧ s2.mods u = some e := by
        intro u e he
        have hut : u ≠ t := fun e' => by
          subst e'
          rw [setMod_same] at he
          cases he
        exact ⟨hut, (hother s2 _ u hut).symm.trans he⟩
      refine ⟨h1.ctx.of_moves hm3 (fun u e he hd => ⟨e, (hback he).2, hd⟩)
        (fun u e x v he hx => h1.ctx.valid u e x v (hback he).2 hx) h1.ctx.validS, fun u e hu he => ?_,
        (hm1.trans h2).trans hm3, fun h => nomatch h⟩
      exact h1.low u e (Nat.lt_of_le_of_ne hu fun e => (hback he).1 (rank_inj e)) (hback he).2

theorem imp_sound (env : Env) : ∀ fuel, Importer env.pure env.watch (imp env fuel) := by
  intro fuel
  induction fuel with
  | zero =>
    exact ⟨fun t s hc hl _ _ => ⟨hc, hl, .rfl, fun h => nomatch h⟩, fun t s _ => rfl⟩
  | succ fuel ih =>
    refine ⟨fun t s hctx hlow hpar hpub => ?_, fun t s hp => ?_⟩
    · simp only [imp]
      split
      · rename_i hp
        refine ⟨hctx, hlow, .rfl, fun _ => ?_⟩
        cases he : s.mods t with
        | none => rw [he] at hp; cases hp
        | some e => exact ⟨e, he, hlow t e (Nat.le_refl _) he⟩
      · rename_i hp
        have habs : s.mods t = none := by
          cases he : s.mods t with
          | none => rfl
          | some e => rw [he] at hp; exact absurd rfl hp
        split
        · rename_i ht
          subst ht
          exact load_sound ih habs hctx hlow (fun h => absurd rfl h) hpub
        · exact load_sound ih habs hctx hlow (fun _ => hpar) hpub
    · simp only [imp, if_pos hp]

/-- Between the imports of a program no body is running. -/
structure Top (p w : Bool) (s : St) : Prop where
  ctx : Ctx p w s
  idle : ∀ u e, s.mods u = some e → e.done = true

theorem Top.fresh (p w : Bool) : Top p w .fresh :=
  ⟨⟨fun _ _ h => (nomatch h), fun _ _ _ _ h => (nomatch h), fun _ _ _ h => (nomatch h)⟩,
    fun _ _ h => nomatch h⟩

theorem Top.pub {p w : Bool} {s : St} (h : Top p w s) (hp : (s.mods .pkg).isSome = true) : Pub s := by
  cases he : s.mods .pkg with
  | none => rw [he] at hp; cases hp
  | some e =>
    obtain ⟨F, hF, -, h2⟩ := h.ctx.inv .pkg e he (h.idle _ _ he)
    have hl : ∀ p w, ∀ F ∈ finals p w .pkg, Mod.checker ∈ F.loaded := by decide +kernel
    obtain ⟨e1, he1, hd1⟩ := h2 .checker (hl p w F hF)
    obtain ⟨G, hG, h3, -⟩ := h.ctx.inv .checker e1 he1 hd1
    have hn : ∀ p w, ∀ F ∈ finals p w .checker, F.names.look "CheckerPublic" = some Imp.pub := by
      decide +kernel
    obtain ⟨v, h4, h5⟩ := h3 _ _ (hn p w G hG)
    exact ⟨e1, he1, v, h4, h5.1⟩

/-- An import attempted by a program, whatever its outcome. -/
theorem imp_top (env : Env) (fuel : Nat) (t : Mod) {s : St} (h : Top env.pure env.watch s) :
    Top env.pure env.watch (imp env fuel t s).2 ∧ Moves Mod.pkg.rank s (imp env fuel t s).2 ∧
    ((imp env fuel t s).1 = none → Done (imp env fuel t s).2 t) := by
  have hload : ∀ {f : Mod → St → Out} {t : Mod} {s : St}, Importer env.pure env.watch f →
      Top env.pure env.watch s → s.mods t = none → (t ≠ .pkg → (s.mods .pkg).isSome = true) →
      Top env.pure env.watch (load env f t s).2 ∧ Moves Mod.pkg.rank s (load env f t s).2 ∧
      ((load env f t s).1 = none → Done (load env f t s).2 t) := by
    intro f t s hf h habs hpar
    have hI := load_sound hf habs h.ctx (fun u e _ he => h.idle u e he) hpar (fun ht => h.pub (hpar (by
      rintro rfl; cases ht)))
    refine ⟨⟨hI.ctx, fun u e he => ?_⟩, hI.moves.mono (rank_pkg t), hI.done⟩
    by_cases hu : u.rank ≤ t.rank
    · exact hI.low u e hu he
    · rw [(hI.moves.frame u (Nat.lt_of_not_le hu)).1] at he
      exact h.idle u e he
  cases fuel with
  | zero => exact ⟨h, .rfl, fun h => nomatch h⟩
  | succ fuel =>
    have ih := imp_sound env fuel
    have hnone : ∀ {s : St} {t : Mod}, ¬ (s.mods t).isSome = true → s.mods t = none := by
      intro s t hp
      cases he : s.mods t with
      | none => rfl
      | some e => rw [he] at hp; exact absurd rfl hp
    simp only [imp]
    split
    · rename_i hp
      refine ⟨h, .rfl, fun _ => ?_⟩
      cases he : s.mods t with
      | none => rw [he] at hp; cases hp
      | some e => exact ⟨e, he, h.idle t e he⟩
    · rename_i hp
      split
      · rename_i ht
        subst ht
        exact hload ih h (hnone hp) (fun h => absurd rfl h)
      · split
        · rename_i hpar
          exact hload ih h (hnone hp) (fun _ => hpar)
        · rename_i hpar
          obtain ⟨h1, h2, h3⟩ := hload ih h (hnone hpar) (fun h => absurd rfl h)
          split
          · rename_i s' hs'
            rw [hs'] at h1 h2 h3
            obtain ⟨e, he, hd⟩ := h3 rfl
            split
            · rename_i hp'
              refine ⟨h1, h2, fun _ => ?_⟩
              cases he : s'.mods t with
              | none => rw [he] at hp'; cases hp'
              | some e => exact ⟨e, he, h1.idle t e he⟩
            · rename_i hp'
              obtain ⟨h4, h5, h6⟩ := hload ih h1 (hnone hp') (fun _ => by rw [he]; rfl)
              exact ⟨h4, h2.trans h5, h6⟩
          · rename_i hne
            refine ⟨h1, h2, fun ho => ?_⟩
            exact (hne _ (Prod.ext ho rfl)).elim

theorem imports_top (env : Env) (l : List Mod) {s : St} (h : Top env.pure env.watch s) :
    Top env.pure env.watch (imports env l s) ∧ Moves Mod.pkg.rank s (imports env l s) := by
  induction l generalizing s with
  | nil => exact ⟨h, .rfl⟩
  | cons t r ih =>
    obtain ⟨h1, h2, -⟩ := imp_top env depth t h
    obtain ⟨h3, h4⟩ := ih h1
    exact ⟨h3, h2.trans h4⟩

end ZS.Imp
