import Verif.Props.SourceXmlFile

/-!
# C86: what cannot be written in a ZCML file
-/

namespace ZS.Props
open ZS ZS.PyC ZS.Src ZS.Spec
set_option maxHeartbeats 1000000

variable {A : Type}

theorem bind_some {α β : Type} {x : M Reading α} {f : α → M Reading β} {s s' : St Reading} {b : β} (h : (x >>= f) s = (.ok b, s')) :
    ∃ a s1, x s = (.ok a, s1) ∧ f a s1 = (.ok b, s') := by
  cases hx : x s with
  | mk r s1 =>
    cases r with
    | ok a => rw [bind_ok hx] at h; exact ⟨a, s1, rfl, h⟩
    | err e => rw [bind_err hx] at h; cases h
    | diverge => rw [bind_diverge hx] at h; cases h

theorem toks_cons {F : Fields} {N : Naming} {fs : List XFrame} {t : XTok} {ts : List XTok} {s s' : St Reading} {r : List XFrame × List Placed}
    (h : runToks F N fs (t :: ts) s = (.ok r, s')) : ∃ p s1, runTok F N fs t s = (.ok p, s1) ∧ ∃ q, runToks F N p.1 ts s1 = (.ok q, s') := by
  unfold runToks at h
  obtain ⟨p, s1, h1, h2⟩ := bind_some h
  obtain ⟨q, s2, h3, h4⟩ := bind_some h2
  cases h4
  exact ⟨p, s1, h1, q, h3⟩

theorem toks_append {F : Fields} {N : Naming} : ∀ {ts ts' : List XTok} {fs : List XFrame} {s s' : St Reading} {r : List XFrame × List Placed},
    runToks F N fs (ts ++ ts') s = (.ok r, s') → ∃ p s1, runToks F N fs ts s = (.ok p, s1) ∧ ∃ q, runToks F N p.1 ts' s1 = (.ok q, s')
  | [], ts', fs, s, s', r, h => ⟨(fs, []), s, rfl, r, h⟩
  | t :: ts, ts', fs, s, s', r, h => by
    obtain ⟨p, s1, h1, q, h2⟩ := toks_cons h
    obtain ⟨p', s2, h3, q', h4⟩ := toks_append h2
    refine ⟨(p'.1, p.2 ++ p'.2), s2, ?_, q', h4⟩
    unfold runToks
    rw [bind_ok h1, bind_ok h3]
    rfl

theorem placing_some {fs : List XFrame} {x : M Reading (List XFrame)} {s s' : St Reading} {r : List XFrame × List Placed} (h : placing fs x s = (.ok r, s')) :
    ∃ s0 y s1, x s0 = (.ok y, s1) := by
  unfold placing at h
  obtain ⟨_, s0, _, h1⟩ := bind_some h
  obtain ⟨y, s1, h2, _⟩ := bind_some h1
  exact ⟨s0, y, s1, h2⟩

theorem args_proper {F : Fields} {schema : String} {fs : List SField} (hs : schemaOf Src.schemas schema = some fs) (l : List String × List String)
    (h1 : ∀ n ∈ fs.map (fun f => attrName f.name), n ∈ l.1) (h2 : ∀ n ∈ l.2, n ∈ (fs.filter fun f => f.required).map fun f => attrName f.name)
    {a : List (String × String)} {s s' : St Reading} {kws : List (Name × PV)} (h : xargs F schema a s = (.ok kws, s')) : Proper l a := by
  unfold xargs at h
  rw [hs] at h
  obtain ⟨g1, g2, _⟩ := toargs_ok h
  refine ⟨fun p hp => h1 _ (g1 p hp), fun n hn => ?_⟩
  obtain ⟨f, hf, rfl⟩ := List.mem_map.mp (h2 n hn)
  rw [List.mem_filter] at hf
  exact g2 f hf.1 hf.2

theorem simple_proper {F : Fields} {N : Naming} {fs : List XFrame} {d : XDef} {a : List (String × String)} {s s' : St Reading} {r : List XFrame × List Placed}
    (h : runTok F N fs (.simple d a) s = (.ok r, s')) {fl : List SField} (hs : schemaOf Src.schemas d.schema = some fl) (l : List String × List String)
    (h1 : ∀ n ∈ fl.map (fun f => attrName f.name), n ∈ l.1) (h2 : ∀ n ∈ l.2, n ∈ (fl.filter fun f => f.required).map fun f => attrName f.name) : Proper l a := by
  unfold runTok at h
  obtain ⟨s0, y, s1, h⟩ := placing_some h
  obtain ⟨kws, s2, h, _⟩ := bind_some h
  exact args_proper hs l h1 h2 h

theorem subs_known {F : Fields} {N : Naming} : ∀ {xs : List Xml} {fs : List XFrame} {s s' : St Reading} {r : List XFrame × List Placed},
    runToks F N fs (flatSubs classDef [("implements", "zope.security.metadirectives.IImplementsSubdirective"),
        ("require", "zope.security.metadirectives.IRequireSubdirective"), ("allow", "zope.security.metadirectives.IAllowSubdirective"),
        ("factory", "zope.security.metadirectives.IFactorySubdirective")] xs) s = (.ok r, s') → ∀ x ∈ xs, knownSub x
  | [], _, _, _, _, _, x, hx => by cases hx
  | .el ns n a ch :: rest, fs, s, s', r, h, x, hx => by
    unfold flatSubs at h
    obtain ⟨p, s1, h1, q, h2⟩ := toks_append h
    rcases List.mem_cons.mp hx with rfl | hx
    · cases ch with
      | cons c ch =>
        obtain ⟨p, s1, h1, _⟩ := toks_cons h1
        cases h1
      | nil =>
        have sub : ∀ {schema : String} {fl : List SField} {ts : List XTok} (l : List String × List String), schemaOf Src.schemas schema = some fl →
            (∀ n ∈ fl.map (fun f => attrName f.name), n ∈ l.1) → (∀ n ∈ l.2, n ∈ (fl.filter fun f => f.required).map fun f => attrName f.name) →
            runToks F N fs (.sub classDef schema n a :: ts) s = (.ok p, s1) → insideClass n = some l → knownSub (.el ns n a []) := by
          intro schema fl ts l hs g1 g2 hr hl
          obtain ⟨p, s1, hr, _⟩ := toks_cons hr
          unfold runTok at hr
          obtain ⟨s0, y, s1, hr⟩ := placing_some hr
          obtain ⟨kws, s2, hr, _⟩ := bind_some hr
          exact ⟨l, hl, args_proper hs l g1 g2 hr⟩
        unfold flatSub at h1
        simp only [subSchema] at h1
        by_cases e1 : "implements" = n
        · subst e1
          exact sub (fl := Src.IImplementsSubdirective) (["interface"], ["interface"]) (by decide) (by decide) (by decide) h1 (by decide)
        by_cases e2 : "require" = n
        · subst e2
          exact sub (fl := Src.IRequireSubdirective) (["permission", "attributes", "set_attributes", "interface", "set_schema", "like_class"], []) (by decide) (by decide) (by decide) h1 (by decide)
        by_cases e3 : "allow" = n
        · subst e3
          exact sub (fl := Src.IAllowSubdirective) (["attributes", "interface"], []) (by decide) (by decide) (by decide) h1 (by decide)
        by_cases e4 : "factory" = n
        · subst e4
          exact sub (fl := Src.IFactorySubdirective) (["id", "title", "description"], []) (by decide) (by decide) (by decide) h1 (by decide)
        simp only [if_neg e1, if_neg e2, if_neg e3, if_neg e4] at h1
        obtain ⟨p, s1, h1, _⟩ := toks_cons h1
        cases h1
    · exact subs_known h2 x hx

theorem plain_known {F : Fields} {N : Naming} {ns n : String} {a : List (String × String)} {ch : List Xml} {d : XDef} (hf : findDef ns n directives = some d) (hd : d.sort = .simple)
    {fl : List SField} (hs : schemaOf Src.schemas d.schema = some fl) (l : List String × List String)
    (h1 : ∀ n ∈ fl.map (fun f => attrName f.name), n ∈ l.1) (h2 : ∀ n ∈ l.2, n ∈ (fl.filter fun f => f.required).map fun f => attrName f.name)
    (hc : n ≠ "configure") (hi : n ≠ "include") {fs : List XFrame} {s s' : St Reading} {r : List XFrame × List Placed}
    (h : runToks F N fs (flat F directives (.el ns n a ch)) s = (.ok r, s')) : Proper l a ∧ ch = [] := by
  unfold flat at h
  rw [if_neg hc, if_neg hi, hf] at h
  simp only [hd] at h
  cases ch with
  | nil =>
    obtain ⟨p, s1, h, _⟩ := toks_cons h
    exact ⟨simple_proper h hs l h1 h2, rfl⟩
  | cons _ _ =>
    obtain ⟨p, s1, h, _⟩ := toks_cons h
    cases h

mutual

theorem flat_known (F : Fields) (N : Naming) : ∀ (x : Xml) {fs : List XFrame} {s s' : St Reading} {r : List XFrame × List Placed},
    runToks F N fs (flat F directives x) s = (.ok r, s') → known F x
  | .el ns n a ch, fs, s, s', r, h => by
    unfold known
    by_cases hc : n = "configure"
    · rw [if_pos (.inl hc)]
      unfold flat at h
      rw [if_pos hc] at h
      obtain ⟨p, s1, _, q, h⟩ := toks_cons h
      obtain ⟨p, s1, h, _⟩ := toks_append h
      exact flats_known F N ch h
    by_cases hi : n = "include"
    · rw [if_pos (.inr hi)]
      unfold flat at h
      rw [if_neg hc, if_pos hi] at h
      obtain ⟨p, s1, _, q, h⟩ := toks_cons h
      obtain ⟨p, s1, h, _⟩ := toks_append h
      exact flats_known F N ch h
    rw [if_neg (fun g => g.elim hc hi)]
    by_cases hk : ns = zopeNs ∧ n = "class"
    · rw [if_pos hk]
      obtain ⟨rfl, rfl⟩ := hk
      unfold flat at h
      rw [if_neg hc, if_neg hi, find_class] at h
      obtain ⟨p, s1, h1, q, h⟩ := toks_cons h
      obtain ⟨p', s2, h, _⟩ := toks_append h
      refine ⟨?_, subs_known h⟩
      unfold runTok at h1
      obtain ⟨s0, y, s1, h1⟩ := placing_some h1
      obtain ⟨kws, s2, h1, _⟩ := bind_some h1
      exact args_proper (fs := Src.IClassDirective) (by decide) _ (by decide) (by decide) h1
    rw [if_neg hk]
    by_cases hm : ns = zopeNs ∧ n = "module"
    · rw [if_pos hm]
      obtain ⟨rfl, rfl⟩ := hm
      unfold flat at h
      rw [if_neg hc, if_neg hi, find_module] at h
      obtain ⟨p, s1, h1, q, h⟩ := toks_cons h
      obtain ⟨p', s2, h, _⟩ := toks_append h
      refine ⟨?_, flats_known F N ch h⟩
      unfold runTok at h1
      obtain ⟨s0, y, s1, h1⟩ := placing_some h1
      obtain ⟨kws, s2, h1, _⟩ := bind_some h1
      exact args_proper (fs := Src.IModule) (by decide) _ (by decide) (by decide) h1
    rw [if_neg hm]
    unfold plainDirective
    by_cases h1 : ns = zopeNs ∧ n = "permission"
    · rw [if_pos h1]
      obtain ⟨rfl, rfl⟩ := h1
      exact plain_known find_permission rfl (fl := Src.IPermissionDirective) (by decide) _ (by decide) (by decide) hc hi h
    rw [if_neg h1]
    by_cases h2 : ns = zopeNs ∧ n = "securityPolicy"
    · rw [if_pos h2]
      obtain ⟨rfl, rfl⟩ := h2
      exact plain_known find_policy rfl (fl := Src.ISecurityPolicyDirective) (by decide) _ (by decide) (by decide) hc hi h
    rw [if_neg h2]
    by_cases h3 : ns = metaNs ∧ n = "redefinePermission"
    · rw [if_pos h3]
      obtain ⟨rfl, rfl⟩ := h3
      exact plain_known find_redefine rfl (fl := Src.IRedefinePermission) (by decide) _ (by decide) (by decide) hc hi h
    rw [if_neg h3]
    by_cases h4 : ns = zopeNs ∧ n = "allow"
    · rw [if_pos h4]
      obtain ⟨rfl, rfl⟩ := h4
      exact plain_known find_allow rfl (fl := Src.IAllow) (by decide) _ (by decide) (by decide) hc hi h
    rw [if_neg h4]
    by_cases h5 : ns = zopeNs ∧ n = "require"
    · rw [if_pos h5]
      obtain ⟨rfl, rfl⟩ := h5
      exact plain_known find_require rfl (fl := Src.IRequire) (by decide) _ (by decide) (by decide) hc hi h
    rw [if_neg h5]
    unfold flat at h
    rw [if_neg hc, if_neg hi, find_none h1 h2 h3 hk hm h4 h5] at h
    by_cases h6 : F.other ns n = true
    · exact h6
    · simp only [h6] at h
      obtain ⟨p, s1, h, _⟩ := toks_cons h
      cases h

theorem flats_known (F : Fields) (N : Naming) : ∀ (xs : List Xml) {fs : List XFrame} {s s' : St Reading} {r : List XFrame × List Placed},
    runToks F N fs (flats F directives xs) s = (.ok r, s') → knowns F xs
  | [], _, _, _, _, _ => by
    unfold knowns
    trivial
  | x :: xs, fs, s, s', r, h => by
    unfold flats at h
    obtain ⟨p, s1, h1, q, h2⟩ := toks_append h
    unfold knowns
    exact ⟨flat_known F N x h1, flats_known F N xs h2⟩

end

/-- **C86** Nothing in a file is passed over: with a directive or an element that there is not, with an attribute that is not meant, or without one that has to be there, anywhere in
the file, it is not loaded, and nothing of it is carried out. -/
theorem C86_refused (X : Ctx A) (F : Fields) (N : Naming) (doc : Xml) (h : ¬ known F doc) (r0 : St Reading) (x : Site A) :
    (xmlLoad X F N r0 doc x).1 ≠ .ok () ∧ (xmlLoad X F N r0 doc x).2 = x := by
  unfold xmlLoad
  cases hr : runToks F N [⟨[], none⟩] (flat F directives doc) r0 with
  | mk r s =>
    cases r with
    | ok y => exact absurd (flat_known F N doc hr) h
    | err e => exact ⟨by simp, rfl⟩
    | diverge => exact ⟨by simp, rfl⟩

/-- **C86** A module's `require` does not take `interface`, although its schema says in words that it does (metadirectives.py:188-193) and
its handler has the parameter (metaconfigure.py:224): whatever else is given, the file is not loaded. -/
theorem C86_module_interface (F : Fields) (N : Naming) (fs : List XFrame) (a : List (String × String)) (h : ∃ p ∈ a, p.1 = "interface") (s s' : St Reading)
    (r : List XFrame × List Placed) : runTok F N fs (.simple requireDef a) s ≠ (.ok r, s') := by
  intro hr
  obtain ⟨p, hp, he⟩ := h
  have hno := (simple_proper hr (fl := Src.IRequire) (by decide) (["attributes", "permission"], ["permission"]) (by decide) (by decide)).1 p hp
  rw [he] at hno
  exact absurd hno (by decide)

theorem items_star (F : Fields) : ∀ {l : List String} {s s' : St Reading} {r : List PV}, "*" ∈ l →
    xitems F "zope.configuration.fields.GlobalInterface" l s ≠ (.ok r, s')
  | [], _, _, _, h => by cases h
  | t :: l, s, s', r, h => by
    intro hr
    unfold xitems at hr
    obtain ⟨x, s1, h1, h2⟩ := bind_some hr
    obtain ⟨y, s2, h3, _⟩ := bind_some h2
    rcases List.mem_cons.mp h with rfl | h
    · unfold xitem at h1
      rw [if_neg (by decide), if_pos rfl, if_pos rfl] at h1
      cases h1
    · exact items_star F h h3

/-- **C86** `*` among interfaces is refused: the handlers never get `None` for an interface, for which `require` has a test (metaconfigure.py:90). -/
theorem C86_star (F : Fields) (n : Name) (q : Bool) (t : String) (h : "*" ∈ F.split t) (s s' : St Reading) (x : PV) :
    xconvert F ⟨n, "zope.configuration.fields.Tokens", some "zope.configuration.fields.GlobalInterface", q⟩ t s ≠ (.ok x, s') := by
  intro hx
  unfold xconvert at hx
  simp only at hx
  rw [if_neg (by decide), if_neg (by decide), if_neg (by decide), if_neg (by decide), if_pos trivial] at hx
  obtain ⟨y, s1, h1, _⟩ := bind_some hx
  exact items_star F h h1

end ZS.Props
