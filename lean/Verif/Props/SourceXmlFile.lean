import Verif.Props.SourceXmlLoad
import Verif.Props.SourceShipped

/-!
# C86: whole ZCML files from the source
-/

namespace ZS.Props
open ZS ZS.PyC ZS.Src ZS.Spec
set_option maxHeartbeats 1000000

variable {A : Type}

/-! ## Which directive is meant -/

theorem find_permission : findDef zopeNs "permission" directives = some permissionDef := by rw [C86_directives]; decide
theorem find_policy : findDef zopeNs "securityPolicy" directives = some policyDef := by rw [C86_directives]; decide
theorem find_redefine : findDef metaNs "redefinePermission" directives = some redefineDef := by rw [C86_directives]; decide
theorem find_allow : findDef zopeNs "allow" directives = some allowDef := by rw [C86_directives]; decide
theorem find_require : findDef zopeNs "require" directives = some requireDef := by rw [C86_directives]; decide
theorem find_class : findDef zopeNs "class" directives = some classDef := by rw [C86_directives]; decide
theorem find_module : findDef zopeNs "module" directives = some moduleDef := by rw [C86_directives]; decide

theorem find_miss {ns n : String} (d : XDef) (r : List XDef) (h : ¬ (ns = d.ns ∧ n = d.name)) : findDef ns n (d :: r) = findDef ns n r := by
  conv => lhs; unfold findDef
  rw [if_neg fun g => h ⟨g.1.symm, g.2.symm⟩]

theorem find_none {ns n : String} (h1 : ¬ (ns = zopeNs ∧ n = "permission")) (h2 : ¬ (ns = zopeNs ∧ n = "securityPolicy")) (h3 : ¬ (ns = metaNs ∧ n = "redefinePermission"))
    (h4 : ¬ (ns = zopeNs ∧ n = "class")) (h5 : ¬ (ns = zopeNs ∧ n = "module")) (h6 : ¬ (ns = zopeNs ∧ n = "allow")) (h7 : ¬ (ns = zopeNs ∧ n = "require")) :
    findDef ns n directives = none := by
  rw [C86_directives, find_miss _ _ h1, find_miss _ _ h2, find_miss _ _ h3, find_miss _ _ h4, find_miss _ _ h5, find_miss _ _ h6, find_miss _ _ h7]
  exact findDef.eq_1 ns n

/-! ## What a file says is what is read -/

theorem reads_plain (F : Fields) {m : Option String} {ms : List (Option String)} {ns n : String} {a : List (String × String)} {evs : List Ev} (hc : n ≠ "configure")
    (hi : n ≠ "include") (hk : ¬ (ns = zopeNs ∧ n = "class")) (hm : ¬ (ns = zopeNs ∧ n = "module")) (h : plainEvent F m ns n a = some evs) {ts : List XTok} {evs' : List Ev}
    (hr : Reads F (m :: ms) none ts evs') : Reads F (m :: ms) none (flat F directives (.el ns n a []) ++ ts) (evs ++ evs') := by
  unfold plainEvent at h
  unfold flat
  rw [if_neg hc, if_neg hi]
  by_cases h1 : ns = zopeNs ∧ n = "permission"
  · rw [if_pos h1] at h
    obtain ⟨rfl, rfl⟩ := h1
    rw [find_permission]
    obtain ⟨e, he, rfl⟩ := Option.map_eq_some_iff.mp h
    exact .permission he hr
  rw [if_neg h1] at h
  by_cases h2 : ns = zopeNs ∧ n = "securityPolicy"
  · rw [if_pos h2] at h
    obtain ⟨rfl, rfl⟩ := h2
    rw [find_policy]
    obtain ⟨e, he, rfl⟩ := Option.map_eq_some_iff.mp h
    exact .policy he hr
  rw [if_neg h2] at h
  by_cases h3 : ns = metaNs ∧ n = "redefinePermission"
  · rw [if_pos h3] at h
    obtain ⟨rfl, rfl⟩ := h3
    rw [find_redefine]
    obtain ⟨e, he, rfl⟩ := Option.map_eq_some_iff.mp h
    exact .redefine he hr
  rw [if_neg h3] at h
  by_cases h4 : ns = zopeNs ∧ n = "allow"
  · rw [if_pos h4] at h
    obtain ⟨rfl, rfl⟩ := h4
    rw [find_allow]
    obtain ⟨e, he, rfl⟩ := Option.map_eq_some_iff.mp h
    exact .modAllow he hr
  rw [if_neg h4] at h
  by_cases h5 : ns = zopeNs ∧ n = "require"
  · rw [if_pos h5] at h
    obtain ⟨rfl, rfl⟩ := h5
    rw [find_require]
    obtain ⟨e, he, rfl⟩ := Option.map_eq_some_iff.mp h
    exact .modRequire he hr
  rw [if_neg h5] at h
  rw [find_none h1 h2 h3 hk hm h4 h5]
  by_cases h6 : F.other ns n = true
  · rw [if_pos h6] at h
    cases h
    simp only [h6, if_true]
    exact hr
  · rw [if_neg h6] at h
    cases h

mutual

theorem reads_flat (F : Fields) (m : Option String) (ms : List (Option String)) : ∀ (x : Xml) (evs : List Ev), events F m x = some evs → ∀ {ts evs'},
    Reads F (m :: ms) none ts evs' → Reads F (m :: ms) none (flat F directives x ++ ts) (evs ++ evs')
  | .el ns n a ch, evs, h, ts, evs', hr => by
    unfold events at h
    by_cases hc : n = "configure"
    · rw [if_pos hc] at h
      cases hl : eventss F m ch with
      | none => rw [hl] at h; cases h
      | some l =>
        rw [hl] at h
        cases h
        unfold flat
        rw [if_pos hc]
        have := reads_flats F m (m :: ms) ch l hl (.leave (m' := m) (cl := none) hr)
        simp only [List.cons_append, List.append_assoc, List.nil_append]
        exact .enter this
    rw [if_neg hc] at h
    by_cases hi : n = "include"
    · rw [if_pos hi] at h
      cases hl : eventss F m ch with
      | none => rw [hl] at h; cases h
      | some l =>
        rw [hl] at h
        cases h
        unfold flat
        rw [if_neg hc, if_pos hi, attr_lookup]
        have := reads_flats F m (m :: ms) ch l hl (.leave (m' := m) (cl := none) hr)
        simp only [List.cons_append, List.append_assoc, List.nil_append]
        exact .enter this
    rw [if_neg hi] at h
    by_cases hk : ns = zopeNs ∧ n = "class"
    · rw [if_pos hk] at h
      obtain ⟨rfl, rfl⟩ := hk
      by_cases hno : NoOther ["class"] a
      · rw [if_pos hno] at h
        cases ht : classIn F (a.lookup "class") with
        | none => rw [ht] at h; cases h
        | some t =>
          rw [ht] at h
          unfold flat
          rw [if_neg hc, if_neg hi, find_class]
          have := reads_subs F t ch evs h (.done (t := t) hr)
          simp only [List.cons_append, List.append_assoc, List.nil_append]
          exact .cls hno ht this
      · rw [if_neg hno] at h; cases h
    rw [if_neg hk] at h
    by_cases hm : ns = zopeNs ∧ n = "module"
    · rw [if_pos hm] at h
      obtain ⟨rfl, rfl⟩ := hm
      by_cases hno : NoOther ["module"] a
      · rw [if_pos hno] at h
        cases ht : moduleIn F (a.lookup "module") with
        | none => rw [ht] at h; cases h
        | some m' =>
          rw [ht] at h
          cases hl : eventss F (some m') ch with
          | none => simp only [hl] at h; cases h
          | some l =>
            simp only [hl] at h
            cases h
            unfold flat
            rw [if_neg hc, if_neg hi, find_module]
            have := reads_flats F (some m') (m :: ms) ch l hl (.leave (cl := none) hr)
            simp only [List.cons_append, List.append_assoc, List.nil_append]
            exact .group hno ht this
      · rw [if_neg hno] at h; cases h
    rw [if_neg hm] at h
    cases ch with
    | cons _ _ => cases h
    | nil => exact reads_plain F hc hi hk hm h hr

theorem reads_flats (F : Fields) (m : Option String) (ms : List (Option String)) : ∀ (xs : List Xml) (evs : List Ev), eventss F m xs = some evs → ∀ {ts evs'},
    Reads F (m :: ms) none ts evs' → Reads F (m :: ms) none (flats F directives xs ++ ts) (evs ++ evs')
  | [], evs, h, ts, evs', hr => by
    unfold eventss at h
    cases h
    unfold flats
    exact hr
  | x :: r, evs, h, ts, evs', hr => by
    unfold eventss at h
    cases hx : events F m x with
    | none => rw [hx] at h; cases h
    | some l =>
      cases hl : eventss F m r with
      | none => rw [hx, hl] at h; cases h
      | some l' =>
        rw [hx, hl] at h
        cases h
        unfold flats
        rw [List.append_assoc, List.append_assoc]
        exact reads_flat F m ms x l hx (reads_flats F m ms r l' hl hr)

end

/-- A ZCML file, from the text of meta.zcml, of the schemas and of the handlers: its elements are gone through, conflicts are resolved, and what remains is carried out. -/
def xmlLoad (X : Ctx A) (F : Fields) (N : Naming) (r0 : St Reading) (doc : Xml) (x : Site A) : Res Unit × Site A :=
  match runToks F N [⟨[], none⟩] (flat F directives doc) r0 with
  | (.ok (_, l), _) =>
    match sourceResolve l with
    | some l => sourceCalls X x (l.map (·.2))
    | none => (.err .configurationError, x)
  | (.err e, _) => (.err e, x)
  | (.diverge, _) => (.diverge, x)

/-- **C86** The elements of a ZCML file, gone through by what meta.zcml, the schemas and the source of the handlers say, emit the actions of the events that the file says. -/
theorem C86_reading (F : Fields) (N : Naming) (doc : Xml) (evs : List Ev) (h : events F none doc = some evs) (r0 : St Reading) (h0 : r0.app.maps = [none]) :
    Ends N (readEvs F.id [⟨none, []⟩] evs) (runToks F N [⟨[], none⟩] (flat F directives doc) r0) := by
  have hA : Nested r0 [⟨none, []⟩] := by
    refine ⟨?_, ?_, ?_⟩
    · rw [h0]; exact ⟨rfl, trivial⟩
    · intro d hd
      rw [h0] at hd
      rcases List.mem_cons.mp hd with h | h <;> cases h
    · rw [h0]; exact List.nodup_nil
  have hr := reads_flat F none [] doc evs h (.nil (ms := [none]) (cl := none))
  rw [List.append_nil, List.append_nil] at hr
  exact reads_ends F N hr hA (by simp) rfl ⟨rfl, trivial⟩ trivial

/-- **C86** Loading a ZCML file configures what the file says. -/
theorem C86_load (X : Ctx A) (F : Fields) (N : Naming) (doc : Xml) (evs : List Ev) (h : events F none doc = some evs) (r0 : St Reading) (h0 : r0.app.maps = [none])
    (x : Site A) : xmlLoad X F N r0 doc x = loadFile F.id evs x := by
  have h := C86_reading F N doc evs h r0 h0
  unfold xmlLoad loadFile
  cases hr : readEvs F.id [⟨none, []⟩] evs with
  | err e =>
    rw [hr] at h
    obtain ⟨s, h⟩ := h
    simp only [h]
  | diverge => rw [hr] at h; exact h.elim
  | ok y =>
    obtain ⟨st, l⟩ := y
    rw [hr] at h
    obtain ⟨fs, s, rs, h1, h2⟩ := h
    simp only [h1]
    have h3 := C81_conflicts N l rs h2
    cases hc : resolveConflicts l with
    | none => rw [hc] at h3; simp only [h3]
    | some l' =>
      rw [hc] at h3
      obtain ⟨rs', h4, pl, rfl, rfl⟩ := h3
      simp only [h4]
      exact calls_paired X N pl x

end ZS.Props
