import Verif.Lemmas.ImportAll
import Verif.Spec.Import

/-!
# C73: importing the package

Whatever fails while modules of the package are imported, and however often a program
tries again, the modules in `sys.modules` fit together.
-/

namespace ZS.Props
open ZS.Imp ZS.Imp.Spec

/-! ### Reading the invariant -/

private theorem top (env : Env) (l : List Mod) : Top env.pure env.watch (imports env l .fresh) :=
  (imports_top env l (Top.fresh _ _)).1

private theorem known {p w : Bool} {s : St} (h : Top p w s) {u : Mod} (hu : Imported s u)
    (hc : isC u = false) : ∃ F ∈ finals p w u, (∀ n a, F.names.look n = some a →
      ∃ v, nameIn s u n = some v ∧ erase v = a ∧ Stamp s u v) ∧ ∀ t ∈ F.loaded, Imported s t := by
  obtain ⟨e, he⟩ := hu
  obtain ⟨F, hF, h1, h2⟩ := h.ctx.inv u e he (h.idle u e he)
  rw [if_neg (by rw [hc]; exact Bool.false_ne_true)] at h1
  refine ⟨F, hF, fun n a hn => ?_, fun t ht => ?_⟩
  · obtain ⟨v, h3, h4, h5⟩ := h1 n a hn
    refine ⟨v, by simp only [nameIn, he, Option.bind_some]; exact h3, h4, h5.resolve_left fun h => ?_⟩
    rw [hc] at h
    cases h.1
  · obtain ⟨e', he', -⟩ := h2 t ht
    exact ⟨e', he'⟩

private theorem knownS {p w : Bool} {s : St} (h : Top p w s) {u : Mod} (hu : Imported s u)
    (hc : isC u = true) : ∃ F ∈ finals p w u, ∀ n a, F.names.look n = some a →
      ∃ v, (s.stat u).look n = some v ∧ erase v = a := by
  obtain ⟨e, he⟩ := hu
  obtain ⟨F, hF, h1, -⟩ := h.ctx.inv u e he (h.idle _ e he)
  rw [if_pos hc] at h1
  refine ⟨F, hF, fun n a hn => ?_⟩
  obtain ⟨v, h3, h4, -⟩ := h1.1 n a hn
  exact ⟨v, h3, h4⟩

private theorem knownC {p w : Bool} {s : St} (h : Top p w s) (hu : Imported s .cchecker) :
    ∃ F ∈ finals p w .cchecker, (∀ n a, F.names.look n = some a →
      ∃ v, cVar s n = some v ∧ erase v = a ∧ (a = pub ∨ Stamp s .cchecker v)) := by
  obtain ⟨e, he⟩ := hu
  obtain ⟨F, hF, h1, -⟩ := h.ctx.inv .cchecker e he (h.idle _ e he)
  refine ⟨F, hF, fun n a hn => ?_⟩
  obtain ⟨v, h3, h4, h5⟩ := (show Sat (Fits s .cchecker) (s.stat .cchecker) F.names from h1.1) n a hn
  exact ⟨v, h3, h4, h5.imp And.right id⟩

private theorem same_object {s : St} {u u' : Mod} : ∀ {v v' : Val}, erase v = erase v' →
    Stamp s u v → Stamp s u' v' → v = v'
  | .made m w r, .made m' w' r', h, h1, h2 => by
    simp only [erase, AV.made.injEq] at h
    obtain ⟨rfl, rfl⟩ := h
    rw [h1.2, h2.2]
  | .get d, .get d', h, h1, h2 => by
    simp only [erase, AV.get.injEq] at h
    rw [same_object h h1 h2]
  | .static _ _, .static _ _, h, _, _ => by simpa only [erase, AV.static.injEq, Val.static.injEq] using h
  | .module _, .module _, h, _, _ => by simpa only [erase, AV.module.injEq, Val.module.injEq] using h
  | .flag _, .flag _, h, _, _ => by simpa only [erase, AV.flag.injEq, Val.flag.injEq] using h

private def fromA : AV → Option Mod
  | .made m _ => some m
  | .static m _ => some m
  | .get d => fromA d
  | _ => none

private theorem fromA_erase : ∀ v : Val, fromA (erase v) = origin v
  | .made _ _ _ => rfl
  | .static _ _ => rfl
  | .get d => fromA_erase d
  | .module _ => rfl
  | .flag _ => rfl

/-! ### Theorems -/

/-- Whatever happens during imports, and however often they are tried: a module left in
`sys.modules` has run to its end; an import that raises nothing leaves its module there; and
a module that is there stays, with the same objects under the same names (`ProxyFactory`, which
`checker.py:141` stores in `proxy`, excepted). -/
theorem C73_no_half (env : Env) (l : List Mod) (m : Mod) :
    (∀ u e, (imports env l .fresh).mods u = some e → e.done = true) ∧
    ((imp env depth m (imports env l .fresh)).1 = none →
      Imported (imp env depth m (imports env l .fresh)).2 m) ∧
    (∀ u n, Imported (imports env l .fresh) u → (u ≠ .proxy ∨ n ≠ "ProxyFactory") →
      nameIn (imp env depth m (imports env l .fresh)).2 u n = nameIn (imports env l .fresh) u n) := by
  have h := top env l
  obtain ⟨-, h2, h3⟩ := imp_top env depth m h
  refine ⟨h.idle, fun ho => ?_, fun u n ⟨e, he⟩ hn => ?_⟩
  · obtain ⟨e, he, -⟩ := h3 ho
    exact ⟨e, he⟩
  · obtain ⟨e', h4, -, -, h5⟩ := h2.kept u e he (h.idle u e he)
    simp only [nameIn, he, h4, Option.bind_some]
    exact h5 n hn

/-- The checkers are implemented in C or in Python, not in a mixture: if `checker` was
imported, then either `_c_available` is true and every object that the C module is to replace,
and everything built from one, is the C module's, or it is false and every one is the Python
module's.  The class `Checker` is that implementation's, or, with `ZOPE_WATCH_CHECKERS` set, the
subclass that logs.  The same for the proxies.  With `PURE_PYTHON` set both are Python's. -/
theorem C73_one_implementation (env : Env) (l : List Mod) :
    (Imported (imports env l .fresh) .checker →
      ∃ b, nameIn (imports env l .fresh) .checker "_c_available" = some (.flag b) ∧
        (env.pure = true → b = false) ∧
        (b = true → Imported (imports env l .fresh) .cchecker) ∧
        (∀ n ∈ switched, ∃ v, nameIn (imports env l .fresh) .checker n = some v ∧
          origin v = some (if b then .cchecker else .checker)) ∧
        ∃ v, nameIn (imports env l .fresh) .checker "Checker" = some v ∧
          IsCheckerClass env.watch b v) ∧
    (Imported (imports env l .fresh) .proxy →
      ∃ b, nameIn (imports env l .fresh) .proxy "_c_available" = some (.flag b) ∧
        (env.pure = true → b = false) ∧
        (b = true → Imported (imports env l .fresh) .cproxy) ∧
        ∀ n ∈ switchedProxy, ∃ v, nameIn (imports env l .fresh) .proxy n = some v ∧
          origin v = some (if b then .cproxy else .proxy)) := by
  have h := top env l
  have main : ∀ (u c : Mod) (ns : List Name), isC u = false →
      (∀ p w, ∀ F ∈ finals p w u, ∃ b, F.names.look "_c_available" = some (.flag b) ∧
        (p = true → b = false) ∧ (b = true → c ∈ F.loaded) ∧
        ∀ n ∈ ns, (F.names.look n).bind fromA = some (if b then c else u)) →
      Imported (imports env l .fresh) u →
      ∃ b, nameIn (imports env l .fresh) u "_c_available" = some (.flag b) ∧
        (env.pure = true → b = false) ∧ (b = true → Imported (imports env l .fresh) c) ∧
        ∀ n ∈ ns, ∃ v, nameIn (imports env l .fresh) u n = some v ∧
          origin v = some (if b then c else u) := by
    intro u c ns hc ht hu
    obtain ⟨F, hF, h1, h2⟩ := known h hu hc
    obtain ⟨b, h3, h4, h5, h6⟩ := ht _ _ F hF
    refine ⟨b, ?_, h4, fun hb => h2 c (h5 hb), fun n hn => ?_⟩
    · obtain ⟨v, h7, h8, -⟩ := h1 _ _ h3
      cases v <;> simp only [erase, reduceCtorEq, AV.flag.injEq] at h8
      rw [h7, h8]
    · have h7 := h6 n hn
      cases ha : F.names.look n with
      | none => rw [ha] at h7; cases h7
      | some a =>
        rw [ha] at h7
        obtain ⟨v, h8, h9, -⟩ := h1 n a ha
        refine ⟨v, h8, ?_⟩
        rw [← fromA_erase, h9]
        exact h7
  refine ⟨fun hu => ?_, main .proxy .cproxy switchedProxy rfl (by decide +kernel)⟩
  obtain ⟨b, h1, h2, h3, h4⟩ := main .checker .cchecker switched rfl (by decide +kernel) hu
  refine ⟨b, h1, h2, h3, h4, ?_⟩
  obtain ⟨F, hF, h5, -⟩ := known h hu rfl
  have tab : ∀ p w, ∀ F ∈ finals p w .checker, ∃ b, F.names.look "_c_available" = some (.flag b) ∧
      F.names.look "Checker" = some (if w then .made .checker "WatchingChecker"
        else if b then .static .cchecker "Checker" else .made .checker "CheckerPy") := by
    decide +kernel
  obtain ⟨b', h6, h7⟩ := tab _ _ F hF
  obtain ⟨v', h8, h9, -⟩ := h5 _ _ h6
  rw [h1] at h8
  cases h8
  cases h9
  obtain ⟨v, h10, h11, -⟩ := h5 _ _ h7
  refine ⟨v, h10, ?_⟩
  generalize env.watch = w at h11 ⊢
  cases w <;> cases b <;> cases v <;>
    simp only [erase, if_true, if_false, Bool.false_eq_true, reduceCtorEq, AV.made.injEq, AV.static.injEq] at h11
  all_goals
    obtain ⟨rfl, rfl⟩ := h11
    first | exact rfl | exact ⟨_, rfl⟩

/-- With the C checkers in use, the C code and the Python code work on the same objects: the
registry of checkers, the default checker, the marker `NoProxy`, the names available by default,
the thread-local holder of the interaction and the exceptions.  This does not depend on what
failed before. -/
theorem C73_shared (env : Env) (l : List Mod)
    (hi : Imported (imports env l .fresh) .checker)
    (hc : nameIn (imports env l .fresh) .checker "_c_available" = some (.flag true)) :
    (∀ n ∈ shared, ∃ v, cVar (imports env l .fresh) n = some v ∧
      nameIn (imports env l .fresh) .checker n = some v) ∧
    (∃ d, cVar (imports env l .fresh) "_checkers" = some d ∧
      nameIn (imports env l .fresh) .checker "_getChecker" = some (.get d)) := by
  have h := top env l
  obtain ⟨F, hF, h1, h2⟩ := known h hi rfl
  have tab : ∀ p w, ∀ F ∈ finals p w .checker, F.names.look "_c_available" = some (.flag false) ∨
      (Mod.cchecker ∈ F.loaded ∧ (∀ G ∈ finals p w .cchecker, ∀ n ∈ shared,
        ∃ a, F.names.look n = some a ∧ G.names.look n = some a ∧ a ≠ pub) ∧
        F.names.look "_getChecker" = some (.get (.made .cchecker "_checkers")) ∧
        ∀ G ∈ finals p w .cchecker, G.names.look "_checkers" = some (.made .cchecker "_checkers")) := by
    have hb : ∀ p w, ∀ F ∈ finals p w .checker, F.names.look "_c_available" = some (.flag false) ∨
      (Mod.cchecker ∈ F.loaded ∧ (∀ G ∈ finals p w .cchecker, ∀ n ∈ shared,
        F.names.look n = G.names.look n ∧ (F.names.look n).isSome = true ∧ F.names.look n ≠ some pub) ∧
        F.names.look "_getChecker" = some (.get (.made .cchecker "_checkers")) ∧
        ∀ G ∈ finals p w .cchecker, G.names.look "_checkers" = some (.made .cchecker "_checkers")) := by
      decide +kernel
    intro p w F hF
    refine (hb p w F hF).imp id fun ⟨h1, h2, h3⟩ => ⟨h1, fun G hG n hn => ?_, h3⟩
    obtain ⟨h4, h5, h6⟩ := h2 G hG n hn
    cases ha : F.names.look n with
    | none => rw [ha] at h5; cases h5
    | some a => exact ⟨a, rfl, h4.symm.trans ha, fun e => h6 (by rw [ha, e])⟩
  rcases tab _ _ F hF with hf | ⟨hl, hs, hg, hd⟩
  · obtain ⟨v, h3, h4, -⟩ := h1 _ _ hf
    rw [hc] at h3
    cases h3
    cases h4
  · obtain ⟨G, hG, h3⟩ := knownC h (h2 _ hl)
    refine ⟨fun n hn => ?_, ?_⟩
    · obtain ⟨a, ha, ha', hne⟩ := hs G hG n hn
      obtain ⟨v, h4, h5, h6⟩ := h1 n a ha
      obtain ⟨v', h7, h8, h9⟩ := h3 n a ha'
      have hv : v' = v := same_object (h8.trans h5.symm) (h9.resolve_left hne) h6
      exact ⟨v', h7, by rw [hv]; exact h4⟩
    · obtain ⟨v, h4, h5, h6⟩ := h1 _ _ hg
      obtain ⟨d, h7, h8, h9⟩ := h3 _ _ (hd G hG)
      refine ⟨d, h7, ?_⟩
      rw [h4, same_object (v' := .get d) (by rw [h5, erase, h8]) h6
        (show Stamp (imports env l .fresh) .cchecker d from h9.resolve_left (by decide))]

/-- The objects that modules compare by identity are one and the same in all of them,
whatever failed before they were imported: in particular the public permission. -/
theorem C73_same_objects (env : Env) (l : List Mod) (k : Link) (hk : k ∈ links)
    (hu : Imported (imports env l .fresh) k.u) :
    ∃ v, nameIn (imports env l .fresh) k.u k.n = some v ∧
      nameIn (imports env l .fresh) k.t k.x = some v := by
  have h := top env l
  have tab : ∀ p w, ∀ k ∈ links, isC k.u = false ∧ isC k.t = false ∧
      ∀ F ∈ finals p w k.u, (k.t = k.u ∨ k.t ∈ F.loaded) ∧ (F.names.look k.n).isSome = true ∧
        ∀ G ∈ finals p w k.t, G.names.look k.x = F.names.look k.n := by
    decide +kernel
  obtain ⟨hc, hc', ht⟩ := tab env.pure env.watch k hk
  obtain ⟨F, hF, h1, h2⟩ := known h hu hc
  obtain ⟨hl, hs, hx⟩ := ht F hF
  have hi : Imported (imports env l .fresh) k.t := hl.elim (fun e => by rw [e]; exact hu) (h2 _)
  obtain ⟨G, hG, h3, -⟩ := known h hi hc'
  cases ha : F.names.look k.n with
  | none => rw [ha] at hs; cases hs
  | some a =>
    obtain ⟨v, h4, h5, h6⟩ := h1 _ _ ha
    obtain ⟨v', h7, h8, h9⟩ := h3 _ _ ((hx G hG).trans ha)
    exact ⟨v, h4, by rw [h7, same_object (h8.trans h5.symm) h9 h6]⟩

/-- The public permission known to the C code: it is the proxied `CheckerPublic` made by some
execution of `checker.py`, never the bare `Global`; and it is the one the Python code uses,
if `checker.py` was executed only once. -/
theorem C73_public (env : Env) (l : List Mod)
    (hi : Imported (imports env l .fresh) .cchecker) :
    (∃ r, 1 ≤ r ∧ r ≤ (imports env l .fresh).runs .checker ∧
      cVar (imports env l .fresh) "CheckerPublic" = some (.made .checker "CheckerPublic" r)) ∧
    (Imported (imports env l .fresh) .checker → (imports env l .fresh).runs .checker ≤ 1 →
      cVar (imports env l .fresh) "CheckerPublic" =
        nameIn (imports env l .fresh) .checker "CheckerPublic") := by
  have h := top env l
  obtain ⟨G, hG, h1⟩ := knownC h hi
  have tab : ∀ p w, ∀ G ∈ finals p w .cchecker, G.names.look "CheckerPublic" = some pub := by
    decide +kernel
  obtain ⟨v, h2, h3, -⟩ := h1 _ _ (tab _ _ G hG)
  have hv : OkV (imports env l .fresh).runs v := h.ctx.validS .cchecker _ v h2
  cases v <;> simp only [pub, erase, reduceCtorEq, AV.made.injEq] at h3
  rename_i m w r
  obtain ⟨rfl, rfl⟩ := h3
  refine ⟨⟨r, hv.1, hv.2, h2⟩, fun hch hr => ?_⟩
  obtain ⟨F, hF, h4, -⟩ := known h hch rfl
  have tab' : ∀ p w, ∀ G ∈ finals p w .checker, G.names.look "CheckerPublic" = some pub := by
    decide +kernel
  obtain ⟨v, h5, h6, h7⟩ := h4 _ _ (tab' _ _ F hF)
  cases v <;> simp only [pub, erase, reduceCtorEq, AV.made.injEq] at h6
  rename_i m' w' r'
  obtain ⟨rfl, rfl⟩ := h6
  have : r' = r := by
    have := h7.2
    have h1 := hv.1
    have h2 := hv.2
    omega
  rw [h2, h5, this]

/-- Once a C module is in `sys.modules`, no static variable that its functions read is `NULL`, and
those that are to hold the name of a method or of an operator hold that name: whatever failed
before, and wherever an earlier initialisation stopped. -/
theorem C73_statics (env : Env) (l : List Mod) :
    (Imported (imports env l .fresh) .cproxy →
      ∀ q ∈ proxyTexts, holdsText (imports env l .fresh) .cproxy q.1 q.2) ∧
    (Imported (imports env l .fresh) .cchecker →
      (∀ q ∈ checkerTexts, holdsText (imports env l .fresh) .cchecker q.1 q.2) ∧
      ∀ x ∈ checkerVars, ∃ v, cVar (imports env l .fresh) x = some v) := by
  have h := top env l
  have text : ∀ {u : Mod} (l' : List (Name × Name)), isC u = true →
      (∀ p w, ∀ F ∈ finals p w u, ∀ q ∈ l', F.names.look q.1 = some (.made u q.2)) →
      Imported (imports env l .fresh) u → ∀ q ∈ l', holdsText (imports env l .fresh) u q.1 q.2 := by
    intro u l' hc tab hu q hq
    obtain ⟨F, hF, h1⟩ := knownS h hu hc
    obtain ⟨v, h2, h3⟩ := h1 _ _ (tab _ _ F hF q hq)
    cases v <;> simp only [erase, reduceCtorEq, AV.made.injEq] at h3
    obtain ⟨rfl, rfl⟩ := h3
    exact ⟨_, h2⟩
  refine ⟨text proxyTexts rfl (by decide +kernel), fun hu =>
    ⟨text checkerTexts rfl (by decide +kernel) hu, fun x hx => ?_⟩⟩
  obtain ⟨F, hF, h1⟩ := knownS h hu rfl
  have tab : ∀ p w, ∀ F ∈ finals p w .cchecker, ∀ x ∈ checkerVars,
      (F.names.look x).isSome = true := by decide +kernel
  obtain ⟨a, ha⟩ := Option.isSome_iff_exists.1 (tab _ _ F hF x hx)
  obtain ⟨v, hv, -⟩ := h1 x a ha
  exact ⟨v, hv⟩

/-- C73: in one execution of a module, different statements make different objects; an object is therefore
known by the module, the execution and its label. -/
theorem C73_labels (pure watch : Bool) (m : Mod) :
    ((body pure watch m).filterMap fun l => match l.stmt with | .new _ what _ => some what | _ => none).Nodup := by
  revert pure watch m
  have h : ∀ pure watch, ∀ m ∈ allMods, ((body pure watch m).filterMap fun l =>
      match l.stmt with | .new _ what _ => some what | _ => none).Nodup := by decide +kernel
  exact fun pure watch m => h pure watch m (mem_allMods m)

/-- When nothing fails: every import of a module written in Python, or compiled, succeeds, in
any order and however many there were before; no module's code is executed twice; and the C
implementations are used exactly if they were compiled and `PURE_PYTHON` is not set. -/
theorem C73_imports (env : Env) (hfault : ∀ n, env.fault n = none)
    (hb : env.checkerBuilt = true → env.proxyBuilt = true) (l : List Mod) (m : Mod) :
    (Available env m → (imp env depth m (imports env l .fresh)).1 = none) ∧
    (∀ u, (imp env depth m (imports env l .fresh)).2.runs u ≤ 1) ∧
    nameIn (imp env depth m (imports env l .fresh)).2 .proxy "_c_available" =
      some (.flag (!env.pure && env.proxyBuilt)) ∧
    nameIn (imp env depth m (imports env l .fresh)).2 .checker "_c_available" =
      some (.flag (!env.pure && env.checkerBuilt)) := by
  obtain ⟨h1, h2⟩ := imp_calm hfault hb m (imports_calm hfault hb l (.inl rfl))
  obtain ⟨-, -, h3, h4⟩ := first_ok hfault hb
  have flag : ∀ {u : Mod} {b : Bool}, chosen (s0 env) u b = true →
      nameIn (imp env depth m (imports env l .fresh)).2 u "_c_available" = some (.flag b) := by
    intro u b hc
    simp only [chosen] at hc
    split at hc
    · rename_i e he
      simp only [nameIn, h1.2 u e he, Option.bind_some]
      exact of_decide_eq_true hc
    · cases hc
  refine ⟨fun ha => (h2 fun hc => ?_).1, Calm.once (.inr h1), flag h3, flag h4⟩
  cases m <;> first | cases hc | skip
  · exact ha.1 rfl
  · exact ha.2 rfl

/-- The same, for the public permission: when nothing fails and the C checkers are in use, the
C code's `CheckerPublic` is the object that every module uses. -/
theorem C73_public_everywhere (env : Env) (hfault : ∀ n, env.fault n = none)
    (hb : env.checkerBuilt = true → env.proxyBuilt = true) (l : List Mod)
    (hi : Imported (imports env l .fresh) .cchecker) (k : Link) (hk : k ∈ links)
    (hx : k.x = "CheckerPublic") (hu : Imported (imports env l .fresh) k.u) :
    nameIn (imports env l .fresh) k.u k.n = cVar (imports env l .fresh) "CheckerPublic" := by
  obtain ⟨v, h1, h2⟩ := C73_same_objects env l k hk hu
  have ht : ∀ k ∈ links, k.x = "CheckerPublic" → k.t = .checker := by decide +kernel
  rw [ht k hk hx, hx] at h2
  have hch : Imported (imports env l .fresh) .checker := by
    cases he : (imports env l .fresh).mods .checker with
    | none => simp only [nameIn, he, Option.bind_none, reduceCtorEq] at h2
    | some e => exact ⟨e, he⟩
  rw [h1, (C73_public env l hi).2 hch (Calm.once (imports_calm hfault hb l (.inl rfl)) .checker), h2]

/-! ### Cases -/

namespace ImportEx

/-- An environment with both C modules. -/
def env (f : Nat → Option Err) : Env := ⟨false, false, true, true, f⟩

def calm : Env := env fun _ => none

/-- While `checker.py` imports `BTrees` (946-950) something other than an `ImportError` is
raised, once. -/
def broken : Env := env fun n => if n = 213 then some .other else none

/-- `_proxy` cannot be loaded the first time. -/
def flaky : Env := env fun n => if n = 54 then some .importError else none

def has (s : St) (m : Mod) : Bool := (s.mods m).isSome

/-- `C73_no_half`, `C73_same_objects`, `C73_shared`, `C73_public`: nothing failed. -/
example : has (imports calm [.metaconfigure, .zcml] .fresh) .checker = true ∧
    has (imports calm [.metaconfigure, .zcml] .fresh) .cchecker = true ∧
    has (imports calm [.metaconfigure, .zcml] .fresh) .zcml = true ∧
    has (imports calm [.metaconfigure, .zcml] .fresh) .adapter = false ∧
    nameIn (imports calm [.metaconfigure, .zcml] .fresh) .metaconfigure "CheckerPublic" =
      some (.made .checker "CheckerPublic" 1) ∧
    cVar (imports calm [.metaconfigure, .zcml] .fresh) "CheckerPublic" =
      some (.made .checker "CheckerPublic" 1) := by
  decide +kernel

/-- The first import fails; `sys.modules` then has the modules that were finished, the C module
among them, but not `checker`.  The second succeeds. -/
example : (imp broken depth .pkg .fresh).1 = some .other ∧
    has (imports broken [.pkg] .fresh) .checker = false ∧
    has (imports broken [.pkg] .fresh) .cchecker = true ∧
    has (imports broken [.pkg] .fresh) .proxy = true ∧
    (imp broken depth .permission (imports broken [.pkg] .fresh)).1 = none := by
  decide +kernel

/-- The hypothesis of `C73_public` that `checker.py` was executed once cannot be dropped: after
an import that failed late and was repeated, the C code's `CheckerPublic` is the one made by the
first execution, and every Python module uses the one made by the second.  (The C code then
treats names declared public as protected by an unknown permission.) -/
theorem C73_retry : ∃ (env : Env) (l : List Mod),
    (∀ n, env.fault n = none ∨ n = 213) ∧
    Imported (imports env l .fresh) .checker ∧ Imported (imports env l .fresh) .cchecker ∧
    cVar (imports env l .fresh) "CheckerPublic" = some (.made .checker "CheckerPublic" 1) ∧
    nameIn (imports env l .fresh) .checker "CheckerPublic" =
      some (.made .checker "CheckerPublic" 2) := by
  have h : has (imports broken [.pkg, .pkg] .fresh) .checker = true ∧
      has (imports broken [.pkg, .pkg] .fresh) .cchecker = true ∧
      cVar (imports broken [.pkg, .pkg] .fresh) "CheckerPublic" =
        some (.made .checker "CheckerPublic" 1) ∧
      nameIn (imports broken [.pkg, .pkg] .fresh) .checker "CheckerPublic" =
        some (.made .checker "CheckerPublic" 2) := by
    decide +kernel
  refine ⟨broken, [.pkg, .pkg], fun n => ?_, Option.isSome_iff_exists.1 h.1,
    Option.isSome_iff_exists.1 h.2.1, h.2.2⟩
  by_cases hn : n = 213
  · exact .inr hn
  · exact .inl (if_neg hn)

/-- `C73_statics`: the initialisation of `_proxy` stops between two strings, and is repeated. -/
example : has (imports (env fun n => if n = 65 then some .other else none) [.pkg] .fresh) .cproxy =
      false ∧
    ((imports (env fun n => if n = 65 then some .other else none) [.pkg] .fresh).stat .cproxy).look
      "str_check" = some (.made .cproxy "check" 1) ∧
    ((imports (env fun n => if n = 65 then some .other else none) [.pkg] .fresh).stat .cproxy).look
      "str_op_radd" = none ∧
    ((imports (env fun n => if n = 65 then some .other else none) [.pkg, .pkg] .fresh).stat .cproxy).look
      "str_op_radd" = some (.made .cproxy "__radd__" 2) ∧
    has (imports (env fun n => if n = 65 then some .other else none) [.pkg, .pkg] .fresh) .cproxy =
      true := by
  decide +kernel

/-- The two choices are separate: if `_proxy` cannot be loaded when `proxy.py` asks for it but
can be when the C checkers do, proxies are Python's and checkers C's. -/
example : nameIn (imports flaky [.pkg] .fresh) .proxy "_c_available" = some (.flag false) ∧
    nameIn (imports flaky [.pkg] .fresh) .checker "_c_available" = some (.flag true) ∧
    nameIn (imports flaky [.pkg] .fresh) .proxy "Proxy" = some (.made .proxy "ProxyPy" 1) ∧
    cVar (imports flaky [.pkg] .fresh) "Proxy" = some (.static .cproxy "_Proxy") := by
  decide +kernel

/-- `C73_one_implementation`, `C73_imports`: Python by choice, by lack of a compiler, and C. -/
example : nameIn (imports ⟨true, true, true, true, fun _ => none⟩ [.testing] .fresh) .checker
      "_c_available" = some (.flag false) ∧
    nameIn (imports ⟨false, false, false, false, fun _ => none⟩ [.testing] .fresh) .checker
      "_checkers" = some (.made .checker "_checkers" 1) ∧
    nameIn (imports calm [.testing] .fresh) .checker "_checkers" =
      some (.made .cchecker "_checkers" 1) ∧
    nameIn (imports calm [.testing] .fresh) .checker "_getChecker" =
      some (.get (.made .cchecker "_checkers" 1)) := by
  decide +kernel

/-- A direct import of the C module: its parent, the package, is imported first. -/
example : (imp calm depth .cchecker .fresh).1 = none ∧
    has (imp calm depth .cchecker .fresh).2 .management = true ∧
    Available calm .cchecker := by
  refine ⟨by decide +kernel, by decide +kernel, fun _ => rfl, fun _ => rfl⟩

end ImportEx

end ZS.Props
