import Verif.Props.SourceFile
import Verif.Lemmas.PyXmlRun

/-!
# C86: from the elements of a ZCML file to what is configured

The elements go through meta.zcml, the schemas of metadirectives.py and zcml.py and the signatures of the handlers; the handlers are run
from their source with keyword arguments.
-/

namespace ZS.Props
open ZS ZS.PyC ZS.Src ZS.Spec
set_option maxHeartbeats 1000000

/-! ## Arguments -/

theorem toargs_ok {conv : SField → String → M Reading PV} : ∀ {fs : List SField} {a : List (String × String)} {s s' : St Reading} {kws : List (Name × PV)},
    toargs conv fs a s = (.ok kws, s') →
      (∀ p ∈ a, p.1 ∈ fs.map fun f => attrName f.name)
      ∧ (∀ f ∈ fs, f.required = true → ∃ p ∈ a, p.1 = attrName f.name)
      ∧ (∀ p ∈ kws, ∃ f ∈ fs, p.1 = f.name ∧ ∃ t, (attrName f.name, t) ∈ a ∧ ∃ s1 s2, conv f t s1 = (.ok p.2, s2))
      ∧ (∀ f ∈ fs, f.required = true → ∃ p ∈ kws, p.1 = f.name)
  | [], a, s, s', kws, h => by
    unfold toargs at h
    cases a with
    | nil => cases h; exact ⟨by simp, by simp, by simp, by simp⟩
    | cons p r => cases h
  | f :: r, a, s, s', kws, h => by
    unfold toargs at h
    have mem : ∀ {t : String} {l : List (String × String)}, attr? (attrName f.name) l = some t → (attrName f.name, t) ∈ l := by
      intro t l hl
      rw [attr_lookup] at hl
      obtain ⟨l1, l2, rfl, _⟩ := List.lookup_eq_some_iff.mp hl
      simp
    cases ha : attr? (attrName f.name) a with
    | some t =>
      rw [ha] at h
      obtain ⟨x, s1, h1, h2⟩ := bind_eq_ok h
      obtain ⟨l, s2, h3, h4⟩ := bind_eq_ok h2
      cases h4
      obtain ⟨g1, g2, g3, g4⟩ := toargs_ok h3
      have hm := mem ha
      have hsub : ∀ p, p ∈ (a.filter fun p => decide (p.1 ≠ attrName f.name)) → p ∈ a := fun p hp => (List.mem_filter.mp hp).1
      refine ⟨?_, ?_, ?_, ?_⟩
      · intro p hp
        rw [List.map_cons]
        by_cases hpn : p.1 = attrName f.name
        · exact List.mem_cons.mpr (.inl hpn)
        · exact List.mem_cons.mpr (.inr (g1 p (List.mem_filter.mpr ⟨hp, by simpa using hpn⟩)))
      · intro g hg hq
        rcases List.mem_cons.mp hg with rfl | hg
        · exact ⟨_, hm, rfl⟩
        · obtain ⟨p, hp, he⟩ := g2 g hg hq
          exact ⟨p, hsub p hp, he⟩
      · intro p hp
        rcases List.mem_cons.mp hp with rfl | hp
        · exact ⟨f, List.mem_cons_self, rfl, t, hm, s, s1, h1⟩
        · obtain ⟨g, hg, he, t', ht, hc⟩ := g3 p hp
          exact ⟨g, List.mem_cons_of_mem _ hg, he, t', hsub _ ht, hc⟩
      · intro g hg hq
        rcases List.mem_cons.mp hg with rfl | hg
        · exact ⟨_, List.mem_cons_self, rfl⟩
        · obtain ⟨p, hp, he⟩ := g4 g hg hq
          exact ⟨p, List.mem_cons_of_mem _ hp, he⟩
    | none =>
      rw [ha] at h
      by_cases hq : f.required = true
      · simp only [hq, if_true] at h
        cases h
      · simp only [hq] at h
        obtain ⟨g1, g2, g3, g4⟩ := toargs_ok h
        refine ⟨fun p hp => List.mem_cons_of_mem _ (g1 p hp), ?_, ?_, ?_⟩
        · intro g hg hq'
          rcases List.mem_cons.mp hg with rfl | hg
          · exact absurd hq' hq
          · exact g2 g hg hq'
        · intro p hp
          obtain ⟨g, hg, he⟩ := g3 p hp
          exact ⟨g, List.mem_cons_of_mem _ hg, he⟩
        · intro g hg hq'
          rcases List.mem_cons.mp hg with rfl | hg
          · exact absurd hq' hq
          · exact g4 g hg hq'

/-- **C86** What the attributes of an element are turned into, for any schema: if they are accepted, each of them is a field's, every required field has one,
the arguments are those of the fields that have an attribute, each what the field makes of the text, and every required field has an argument. -/
theorem C86_arguments (conv : SField → String → M Reading PV) (fs : List SField) (a : List (String × String)) (s s' : St Reading) (kws : List (Name × PV))
    (h : toargs conv fs a s = (.ok kws, s')) :
      (∀ p ∈ a, p.1 ∈ fs.map fun f => attrName f.name)
      ∧ (∀ f ∈ fs, f.required = true → ∃ p ∈ a, p.1 = attrName f.name)
      ∧ (∀ p ∈ kws, ∃ f ∈ fs, p.1 = f.name ∧ ∃ t, (attrName f.name, t) ∈ a ∧ ∃ s1 s2, conv f t s1 = (.ok p.2, s2))
      ∧ (∀ f ∈ fs, f.required = true → ∃ p ∈ kws, p.1 = f.name) := toargs_ok h

/-! ## Signatures -/

/-- A handler and how many positional arguments it gets: the context, and for methods the object. -/
def handlerOf (h : String) : Option (Fn × Nat) :=
  match fnOf (zcmlFns ++ modFns) h with
  | some f => some (f, 1)
  | none =>
    match handlerClass h with
    | some l => (fnOf l "__init__").map (·, 2)
    | none => none

/-- A method of a handler. -/
def methodOf (h n : String) : Option (Fn × Nat) :=
  match handlerClass h with
  | some l => (fnOf l n).map (·, 2)
  | none => none

/-- The calls of a directive: schema and function. -/
def callsOf (d : XDef) : List (String × Option (Fn × Nat)) :=
  match d.sort with
  | .simple => [(d.schema, handlerOf d.handler)]
  | .grouping => []
  | .complex subs => (d.schema, handlerOf d.handler) :: subs.map fun p => (p.2, methodOf d.handler p.1)

/-- Constants. -/
def isConstant : Expr → Bool
  | .none => true
  | .str _ => true
  | .tuple [] => true
  | _ => false

/-- The fields of the schema are parameters; the parameters that are no fields, or fields that are not required, have defaults, which are constants. -/
def fits (fs : List SField) (f : Fn) (k : Nat) : Bool :=
  (fs.all fun g => (f.params.drop k).any fun p => p.1 == g.name)
  && ((f.params.drop k).all fun p => match p.2 with
    | some e => isConstant e
    | none => fs.any fun g => g.name == p.1 && g.required)
  && decide (k ≤ f.params.length) && decide (f.params.map Prod.fst).Nodup && f.star.isNone && f.dstar.isNone

theorem constant_eval (L : Lang Reading) {e : Expr} (h : isConstant e = true) : ∃ x, eval L e [] = pure x := by
  cases e with
  | none => exact ⟨_, by unfold eval; rfl⟩
  | str t => exact ⟨_, by unfold eval; rfl⟩
  | tuple l =>
    cases l with
    | nil => exact ⟨_, by unfold eval evalArgs; rfl⟩
    | cons _ _ => cases h
  | _ => cases h

/-- All the schemas and handlers of meta.zcml. -/
theorem signatures_fit : directives.all (fun d => (callsOf d).all fun c =>
    match schemaOf Src.schemas c.1, c.2 with
    | some fs, some f => fits fs f.1 f.2
    | _, _ => false) = true := by decide +kernel

theorem filled_exists (L : Lang Reading) {kws : List (Name × PV)} : ∀ {ps : List (Name × Option Expr)},
    (∀ p ∈ ps, (∃ q ∈ kws, q.1 = p.1) ∨ ∃ e x, p.2 = some e ∧ eval L e [] = pure x) → ∃ xs, Filled L kws ps xs
  | [], _ => ⟨[], .nil⟩
  | (n, d) :: ps, h => by
    obtain ⟨xs, hx⟩ := filled_exists L (ps := ps) fun p hp => h p (List.mem_cons_of_mem _ hp)
    cases ht : takeKw n kws with
    | some x => exact ⟨x :: xs, .given ht hx⟩
    | none =>
      rcases h (n, d) List.mem_cons_self with ⟨q, hq, he⟩ | ⟨e, x, hd, he⟩
      · exfalso
        have : ∀ l : List (Name × PV), q ∈ l → takeKw n l ≠ none := by
          intro l
          induction l with
          | nil => intro h; cases h
          | cons r l ihl =>
            intro h
            obtain ⟨k, y⟩ := r
            rw [show takeKw n ((k, y) :: l) = if k = n then some y else takeKw n l from rfl]
            by_cases hk : k = n
            · simp [hk]
            · rw [if_neg hk]
              rcases List.mem_cons.mp h with rfl | h
              · exact absurd he hk
              · exact ihl h
        exact this kws hq ht
      · simp only at hd
        subst hd
        exact ⟨x :: xs, .default ht he hx⟩

theorem bind_positional (L : Lang Reading) (f : Fn) (hs : f.star = none) (hd : f.dstar = none) : ∀ (ps : List (Name × Option Expr)) (xs : List PV) (env : Env),
    xs.length = ps.length → ∃ env', bindParams L f ps xs [] env = pure env'
  | [], [], env, _ => ⟨env, by unfold bindParams; rw [hs, hd]; rfl⟩
  | (n, d) :: ps, x :: xs, env, h => bind_positional L f hs hd ps xs (env.put n x) (Nat.succ.inj h)
  | [], _ :: _, _, h => by cases h
  | _ :: _, [], _, h => by cases h

theorem filled_length {L : Lang Reading} {kws : List (Name × PV)} {ps : List (Name × Option Expr)} {xs : List PV} (h : Filled L kws ps xs) : xs.length = ps.length := by
  induction h with
  | nil => rfl
  | given _ _ ih => simp [ih]
  | default _ _ _ ih => simp [ih]

/-- **C86** Whatever is written in an element, the schema and the handler fit together: for every directive and subdirective of meta.zcml, if the schema accepts
the attributes, then the handler can be called with the arguments: none is unknown to it, none is given twice, none is missing. -/
theorem C86_signatures (d : XDef) (hd : d ∈ directives) (c : String × Option (Fn × Nat)) (hc : c ∈ callsOf d) :
    ∃ fs f k, schemaOf Src.schemas c.1 = some fs ∧ c.2 = some (f, k) ∧
      ∀ (conv : SField → String → M Reading PV) (a : List (String × String)) (s s' : St Reading) (kws : List (Name × PV)), toargs conv fs a s = (.ok kws, s') →
        ∀ (L : Lang Reading) (pos : List PV), pos.length = k → ∃ xs, runIn L f [] pos kws = run L f (pos ++ xs) ∧
          ∃ env, bindParams L f f.params (pos ++ xs) [] [] = pure env := by
  have hall := List.all_eq_true.mp (List.all_eq_true.mp signatures_fit d hd) c hc
  cases hs : schemaOf Src.schemas c.1 with
  | none => rw [hs] at hall; cases hall
  | some fs =>
    cases hf : c.2 with
    | none => rw [hs, hf] at hall; cases hall
    | some fk =>
      obtain ⟨f, k⟩ := fk
      rw [hs, hf] at hall
      unfold fits at hall
      simp only [Bool.and_eq_true, decide_eq_true_eq, Option.isNone_iff_eq_none] at hall
      obtain ⟨⟨⟨⟨⟨h1, h2⟩, h3⟩, h4⟩, h5⟩, h6⟩ := hall
      refine ⟨fs, f, k, rfl, rfl, ?_⟩
      intro conv a s s' kws hk L pos hp
      obtain ⟨_, _, g3, g4⟩ := toargs_ok hk
      obtain ⟨xs, hx⟩ := filled_exists L (kws := kws) (ps := f.params.drop k) (by
        intro p hp
        have := List.all_eq_true.mp h2 p hp
        cases hpe : p.2 with
        | some e =>
          rw [hpe] at this
          obtain ⟨x, hx⟩ := constant_eval L this
          exact .inr ⟨e, x, rfl, hx⟩
        | none =>
          rw [hpe] at this
          obtain ⟨g, hg, he⟩ := List.any_eq_true.mp this
          simp only [Bool.and_eq_true, beq_iff_eq] at he
          obtain ⟨q, hq, hqe⟩ := g4 g hg he.2
          exact .inl ⟨q, hq, hqe.trans he.1⟩)
      have hpar : f.params = f.params.take k ++ f.params.drop k := (List.take_append_drop k f.params).symm
      refine ⟨xs, run_filled L f (f.params.take k) (f.params.drop k) hpar pos (by rw [hp, List.length_take]; omega) hx ?_ (by rw [← hpar]; exact h4), ?_⟩
      · intro p hp
        obtain ⟨g, hg, he, _⟩ := g3 p hp
        obtain ⟨q, hq, hqe⟩ := List.any_eq_true.mp (List.all_eq_true.mp h1 g hg)
        rw [he]
        exact List.mem_map.mpr ⟨q, hq, by simpa using hqe⟩
      · refine bind_positional L f h5 h6 _ _ _ ?_
        rw [List.length_append, filled_length hx, hp, List.length_drop]
        omega

/-- **C86** The directives of meta.zcml, their schemas and their handlers. -/
theorem C86_directives : directives =
    [⟨zopeNs, "permission", "zope.security.zcml.IPermissionDirective", "zope.security.zcml.permission", .simple⟩,
     ⟨zopeNs, "securityPolicy", "zope.security.zcml.ISecurityPolicyDirective", "zope.security.zcml.securityPolicy", .simple⟩,
     ⟨metaNs, "redefinePermission", "zope.security.zcml.IRedefinePermission", "zope.security.zcml.redefinePermission", .simple⟩,
     ⟨zopeNs, "class", "zope.security.metadirectives.IClassDirective", "zope.security.metaconfigure.ClassDirective",
       .complex [("implements", "zope.security.metadirectives.IImplementsSubdirective"), ("require", "zope.security.metadirectives.IRequireSubdirective"),
         ("allow", "zope.security.metadirectives.IAllowSubdirective"), ("factory", "zope.security.metadirectives.IFactorySubdirective")]⟩,
     ⟨zopeNs, "module", "zope.security.metadirectives.IModule", "zope.configuration.config.GroupingContextDecorator", .grouping⟩,
     ⟨zopeNs, "allow", "zope.security.metadirectives.IAllow", "zope.security.metaconfigure.allow", .simple⟩,
     ⟨zopeNs, "require", "zope.security.metadirectives.IRequire", "zope.security.metaconfigure.require", .simple⟩] := by decide +kernel

end ZS.Props
