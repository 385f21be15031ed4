import Verif.Spec.Contract

/-!
# Declared interfaces are kept

C90: whoever declares an interface of this package has what the interface asks for, and takes every call that the
interface allows, as long as the arguments are given by position.
-/

namespace ZS.Contract

/-- Enough for every call of `s` to be one of `t`. -/
def covers (s t : Sig) : Bool :=
  s.only == 0 && t.only == 0 && t.names.take s.names.length == s.names && decide (t.required ≤ s.required) &&
    decide (s.required ≤ s.names.length) && (!s.star || t.star)

theorem covers_sound {s t : Sig} (h : covers s t = true) (c : Call) (hc : s.Accepts c) : t.Accepts c := by
  simp only [covers, Bool.and_eq_true, beq_iff_eq, decide_eq_true_eq, Bool.or_eq_true, Bool.not_eq_true'] at h
  obtain ⟨⟨⟨⟨⟨h1, h2⟩, h3⟩, h4⟩, h5⟩, h6⟩ := h
  obtain ⟨r, hr⟩ : ∃ r, t.names = s.names ++ r :=
    ⟨t.names.drop s.names.length, by conv_lhs => rw [← List.take_append_drop s.names.length t.names, h3]⟩
  obtain ⟨a1, a2, a3, a4, a5⟩ := hc
  simp only [h1, Nat.sub_zero, Nat.zero_add] at a1 a3 a5
  refine ⟨?_, a2, ?_, ?_, ?_⟩
  · rcases a1 with a1 | a1
    · left; simp only [h2, hr, List.length_append]; omega
    · right; rcases h6 with h6 | h6
      · simp [h6] at a1
      · exact h6
  · intro k hk
    have := a3 k hk
    simp only [h2, hr, Nat.sub_zero]
    rw [List.drop_append]
    exact List.mem_append_left _ this
  · simp [h2]
  · intro k hk
    simp only [h2, hr, Nat.sub_zero] at hk
    apply a5
    have e : (s.names ++ r).take t.required = s.names.take t.required := by
      rw [List.take_append_of_le_length (by omega)]
    rw [e] at hk
    have p : s.names.take t.required <+: s.names.take s.required := List.take_prefix_take_left h4
    obtain ⟨u, hu⟩ := p
    rw [← hu, List.drop_append]
    exact List.mem_append_left _ hk

/-- A call by position only. -/
theorem accepts_pos {s : Sig} (h : s.required ≤ s.only + s.names.length) (n : Nat) :
    s.Accepts ⟨n, []⟩ ↔ (n ≤ s.only + s.names.length ∨ s.star = true) ∧ s.required ≤ n := by
  simp only [Sig.Accepts, List.nodup_nil, List.not_mem_nil, false_implies, implies_true, true_and, imp_false]
  constructor
  · rintro ⟨a, b, c⟩
    refine ⟨a, ?_⟩
    have : (s.names.take (s.required - s.only)).drop (n - s.only) = [] := List.eq_nil_iff_forall_not_mem.2 c
    have := congrArg List.length this
    simp only [List.length_drop, List.length_take, List.length_nil] at this
    omega
  · rintro ⟨a, b⟩
    refine ⟨a, by omega, ?_⟩
    apply List.eq_nil_iff_forall_not_mem.1
    apply List.eq_nil_of_length_eq_zero
    simp only [List.length_drop, List.length_take]
    omega

/-- Enough for every call of `s` by position to be one of `t`. -/
def covers_pos (s t : Sig) : Bool :=
  decide (s.required ≤ s.only + s.names.length) && decide (t.required ≤ t.only + t.names.length) &&
    decide (t.required ≤ s.required) && (t.star || (!s.star && decide (s.only + s.names.length ≤ t.only + t.names.length)))

theorem covers_pos_sound {s t : Sig} (h : covers_pos s t = true) (n : Nat) (hc : s.Accepts ⟨n, []⟩) :
    t.Accepts ⟨n, []⟩ := by
  simp only [covers_pos, Bool.and_eq_true, decide_eq_true_eq, Bool.or_eq_true, Bool.not_eq_true'] at h
  obtain ⟨⟨⟨h1, h2⟩, h3⟩, h4⟩ := h
  rw [accepts_pos h1] at hc
  rw [accepts_pos h2]
  refine ⟨?_, by omega⟩
  rcases h4 with h4 | ⟨h4, h5⟩
  · exact .inr h4
  · rcases hc.1 with a | a
    · left; omega
    · simp [h4] at a

theorem check_pos (compiled : Bool) : ((claims compiled).all fun d => (methodsOf 8 d.iface).all fun p =>
    match offers compiled d p.1 with
    | some t => covers_pos p.2 t
    | none => false) = true := by
  cases compiled <;> decide +kernel

theorem check_names (compiled : Bool) : ((claims compiled).all fun d => (methodsOf 8 d.iface).all fun p =>
    match offers compiled d p.1 with
    | some t => if (byName compiled d).contains p.1 then covers p.2 t
        else decide (p.2.Accepts ⟨0, p.2.names⟩ ∧ ¬ t.Accepts ⟨0, p.2.names⟩)
    | none => false) = true := by
  cases compiled <;> decide +kernel

theorem check_attrs (compiled : Bool) : ((claims compiled).all fun d => match d with
    | .cls m n i => (attrsOf 8 i).all fun a => (mro compiled m 8 (resolve compiled m n)).any fun b => gives compiled m b a
    | .obj _ _ i => (attrsOf 8 i).isEmpty
    | .mod _ i => (attrsOf 8 i).isEmpty) = true := by
  cases compiled <;> decide +kernel

end ZS.Contract

namespace ZS.Props
open ZS.Contract

/-- **C90, methods.** With the C files and without them: whoever declares an interface of this package, by itself or
through a base class, has every method of the interface, and the method takes every call by position which the
interface allows. -/
theorem C90_methods (compiled : Bool) (d : Decl) (hd : d ∈ claims compiled) (m : String) (s : Sig)
    (hm : (m, s) ∈ methodsOf 8 d.iface) :
    ∃ t, offers compiled d m = some t ∧ ∀ n, s.Accepts ⟨n, []⟩ → t.Accepts ⟨n, []⟩ := by
  have h := List.all_eq_true.1 (List.all_eq_true.1 (check_pos compiled) d hd) (m, s) hm
  simp only at h
  split at h
  · rename_i t e
    exact ⟨t, e, covers_pos_sound h⟩
  · cases h

/-- **C90, names of parameters.** The arguments can also be given by the names which the interface has for the
parameters, in all mixtures of position and name, exactly for the methods of `byName`. For the others the call with
all parameters by name is one which the interface allows and which raises `TypeError`. -/
theorem C90_names (compiled : Bool) (d : Decl) (hd : d ∈ claims compiled) (m : String) (s t : Sig)
    (hm : (m, s) ∈ methodsOf 8 d.iface) (ht : offers compiled d m = some t) :
    (m ∈ byName compiled d ↔ ∀ c, s.Accepts c → t.Accepts c) ∧
      (m ∉ byName compiled d → s.Accepts ⟨0, s.names⟩ ∧ ¬ t.Accepts ⟨0, s.names⟩) := by
  have h := List.all_eq_true.1 (List.all_eq_true.1 (check_names compiled) d hd) (m, s) hm
  simp only [ht] at h
  by_cases hb : m ∈ byName compiled d
  · rw [if_pos (List.contains_iff_mem.2 hb)] at h
    exact ⟨⟨fun _ => covers_sound h, fun _ => hb⟩, fun x => absurd hb x⟩
  · rw [if_neg (fun x => hb (List.contains_iff_mem.1 x))] at h
    have h := of_decide_eq_true h
    exact ⟨⟨fun x => absurd x hb, fun x => absurd (x _ h.1) h.2⟩, fun _ => h⟩

/-- **C90, attributes.** The instances of a class which declares an interface have the attributes of the interface:
one of the classes of the search order assigns them, in its body or without condition in its `__init__`. The
interfaces which modules and other objects declare have none. -/
theorem C90_attributes (compiled : Bool) (d : Decl) (hd : d ∈ claims compiled) (a : String)
    (ha : a ∈ attrsOf 8 d.iface) :
    ∃ m n, d = .cls m n d.iface ∧ ∃ b ∈ mro compiled m 8 (resolve compiled m n), gives compiled m b a = true := by
  have h := List.all_eq_true.1 (check_attrs compiled) d hd
  cases d with
  | cls m n i =>
    have h := List.all_eq_true.1 h a ha
    obtain ⟨b, hb, hg⟩ := List.any_eq_true.1 h
    exact ⟨m, n, rfl, b, hb, hg⟩
  | obj m n i =>
    have h : (attrsOf 8 i).isEmpty = true := h
    simp only [Decl.iface, List.isEmpty_iff.1 h] at ha
    cases ha
  | mod m i =>
    have h : (attrsOf 8 i).isEmpty = true := h
    simp only [Decl.iface, List.isEmpty_iff.1 h] at ha
    cases ha

/-- **C90, nothing is left out.** Every declaration of the files is a claim, but for three about two interfaces of
zope.schema; and the bases of the interfaces are known, but for three of zope.interface which ask for no method. -/
theorem C90_covered (compiled : Bool) :
    (∀ d ∈ Src.declared, d ∈ claims compiled ∨ d ∈ [Decl.obj "permission" "PermissionsVocabulary" "IVocabularyFactory",
      .obj "permission" "PermissionIdsVocabulary" "IVocabularyFactory", .cls "zcml" "Permission" "IFromUnicode"]) ∧
    ∀ i ∈ Src.ifaces, ∀ b ∈ i.bases, (findIface b).isSome = true ∨ b ∈ ["Interface", "IException", "IAttributeError"] := by
  cases compiled <;> decide +kernel

/-- **C90, an interface without provider.** Nothing declares `ISecurityChecking`, though the function of
management.py takes every call of it. -/
theorem C90_undeclared : (∀ compiled, ∀ d ∈ claims compiled, d.iface ≠ "ISecurityChecking") ∧
    ∀ s, ("checkPermission", s) ∈ methodsOf 8 "ISecurityChecking" →
      ∃ t, function "management" "checkPermission" = some t ∧ ∀ c, s.Accepts c → t.Accepts c := by
  constructor
  · intro compiled
    cases compiled <;> decide +kernel
  · intro s hs
    have e : methodsOf 8 "ISecurityChecking" = [("checkPermission", ⟨0, ["permission", "object", "interaction"], 2, false⟩)] := by
      decide +kernel
    rw [e] at hs
    simp only [List.mem_singleton, Prod.mk.injEq, true_and] at hs
    subst hs
    exact ⟨⟨0, ["permission", "object", "interaction"], 2, false⟩, by decide +kernel, covers_sound (by decide +kernel)⟩

/-! ### Cases -/

/-- The search order of the checker which watches two, and the claim it inherits; its `check_getattr` is that of
`CombinedChecker`. -/
example : mro true "checker" 8 "WatchingCombinedChecker" =
      ["WatchingCombinedChecker", "CombinedChecker", "WatchingChecker", "CheckerLoggingMixin", "Checker"] ∧
    .cls "checker" "WatchingCombinedChecker" "INameBasedChecker" ∈ claims true ∧
    ("check_getattr", ⟨0, ["ob", "name"], 2, false⟩) ∈ methodsOf 8 "INameBasedChecker" ∧
    offers true (.cls "checker" "WatchingCombinedChecker" "INameBasedChecker") "check_getattr" =
      some ⟨0, ["object", "name"], 2, false⟩ := by decide +kernel

/-- `newInteraction(participation=p)` is allowed by the interface and refused by the function. -/
example : .mod "management" "IInteractionManagement" ∈ claims false ∧
    (Sig.Accepts ⟨0, ["participation"], 0, false⟩ ⟨0, ["participation"]⟩) ∧
    offers false (.mod "management" "IInteractionManagement") "newInteraction" = some ⟨0, [], 0, true⟩ ∧
    ¬ Sig.Accepts ⟨0, [], 0, true⟩ ⟨0, ["participation"]⟩ := by decide +kernel

/-- The attributes of a participation. -/
example : .cls "testing" "Participation" "IParticipation" ∈ claims true ∧
    attrsOf 8 "IParticipation" = ["interaction", "principal"] := by decide +kernel

/-- All claims: nothing of the declarations is lost. -/
example : (claims true).length = 22 := by decide +kernel

end ZS.Props
