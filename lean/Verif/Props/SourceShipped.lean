import Verif.Props.SourceFile
import Verif.Props.File
import Verif.Props.SourceConfigExamples

/-!
# C81: the configuration that comes with the package, and other cases, from the source
-/

namespace ZS.Props
open ZS ZS.PyC ZS.Src Spec
variable {A : Type}

/-- configure.zcml and permissions.zcml as `shipped` of `Props/File.lean` has them, as they are written. -/
def shippedTokens : List Token :=
  [.enter (some "configure.zcml"), .one (.plain (.cls "Permission" "allow" [.v .none, .list [.iface iPermission]])), .enter (some "permissions.zcml"),
   .one (.permission "zope.Public" "[public-permission] Public"
     (some "Special permission indicating unconditional access.\n                   Public resources are always accessible.")),
   .one (.permission "zope.View" "[view-permission] View" none),
   .one (.permission "zope.Security" "[change-security-settings-permission] Change security settings" none),
   .one (.permission "zope.ManageContent" "[manage-content-permission] Manage Content" none),
   .one (.permission "zope.ManageServices" "[manage-services-permission] Manage Services" none),
   .one (.permission "zope.ManageSite" "[manage-site-permission] Manage Site" none), .leave, .leave]

theorem shipped_written : Written shipped shippedTokens :=
  .enter (.one (.allow (.allow .none (.list [some iPermission]))) (.enter (.one .permission (.one .permission (.one .permission (.one .permission
    (.one .permission (.one .permission (.leave (.leave .nil))))))))))

/-- **C81** Loading the configuration that comes with the package by the source of the package: it succeeds, defines exactly its permissions, makes
exactly the three attributes of `IPermission` readable for everybody on permissions, and changes nothing else. -/
theorem C81_shipped (X : Ctx A) (N : Naming) (r0 : St Reading) (h0 : r0.app.maps = [none]) (E : Ext) (a : A) (u : Utilities) (f : IdField)
    (hf : ∀ id ∈ shippedIds, f.strip id = id) (hv : ∀ id ∈ shippedIds, f.valid id = true) :
    ∃ x', sourceLoad X f N r0 shippedTokens ⟨initial E a, u⟩ = (.ok (), x')
      ∧ (∀ id, Registered x'.utilities id ↔ Registered u id ∨ id ∈ shippedIds)
      ∧ (∀ n, required false x'.state (.ty "Permission") n
          = if n = "id" ∨ n = "title" ∨ n = "description" then some publicV else none)
      ∧ (∀ n, required true x'.state (.ty "Permission") n = none)
      ∧ (∀ k w n, k ≠ .ty "Permission" → required w x'.state k n = required w (initial E a) k n)
      ∧ x'.state.policy = .paranoid := by
  rw [C81_load X f N shipped shippedTokens shipped_written r0 h0]
  exact C68_shipped E a u f hf hv

/-- **C81** Any configuration without mistakes and conflicts is carried out completely by the source; it ends without exception exactly
if all the permissions that are written in it are registered then. -/
theorem C81_carried_out (X : Ctx A) (N : Naming) (r0 : St Reading) (h0 : r0.app.maps = [none]) (f : IdField) (evs : List Ev) (ts : List Token)
    (hw : Written evs ts) (x : Site A) (hr : Readable f evs) (hs : Unambiguous f evs) (hh : Heap x.state) (hready : SiteReady f evs x.state) :
    ∃ x', CarriedOut f evs x x' ∧ (sourceLoad X f N r0 ts x).2 = x'
      ∧ (sourceLoad X f N r0 ts x = (.ok (), x') ↔ ∀ id, Needs f evs id → Registered x'.utilities id) := by
  rw [C81_load X f N evs ts hw r0 h0]
  obtain ⟨x', h1, h2⟩ := C68_carried_out f evs x hr hs hh hready
  refine ⟨x', h1, ?_, h2⟩
  rcases h1 with h1 | h1 <;> rw [h1]

end ZS.Props

namespace ZS.Props.Texts
open ZS ZS.PyC ZS.Src

/-- Nothing has been read; there is the outermost context. -/
def start : St Reading := initial Ex.ext ⟨[], [], [none]⟩

theorem nested_start : Nested start [⟨none, []⟩] :=
  ⟨⟨rfl, trivial⟩, fun d hd => by simp [start, initial] at hd, List.nodup_nil⟩

/-- The arguments of `require` with a permission and attributes. -/
def require (t : String) (attributes : List Name) (p : Val) : Invocation :=
  .cls t "require" [.v p, .list (attributes.map nameV), .v .none, .v .none, .v .none, .v .none]

/-- `Files.evs` of `Props/File.lean` as written. -/
def tokens : List Token :=
  [.enter (some "site.zcml"), .one (.permission "view" "View" none), .one (.permission "edit" "Edit" (some "Changing things")), .enter (some "a.zcml"),
   .one (.redefine "view" "edit"), .one (.guarded "view" (require "Doc" ["title", "body"])), .leave,
   .one (.guarded "view" (require "Doc" ["title"])), .leave]

theorem tokens_written : Written Files.evs tokens :=
  .enter (.one .permission (.one .permission (.enter (.one .redefine (.one
    (.requirePermission rfl fun _ => .require trivial ⟨.list ["title", "body"], .none, rfl, .none, .none⟩) (.leave (.one
    (.requirePermission rfl fun _ => .require trivial ⟨.list ["title"], .none, rfl, .none, .none⟩) (.leave .nil))))))))

/-- What is required and stored after loading from source. -/
def outcome (ts : List Token) : Res Unit × Option Val × Option Val × List String :=
  let r := sourceLoad (Ex.X .py) Files.field Shop.naming start ts Files.start
  (r.1, required false r.2.state (.ty "Doc") "title", required false r.2.state (.ty "Doc") "body", r.2.utilities.map (·.1))

/-- The including file's declaration stays, and its `view` is `view`; in the included file it is `edit`. -/
example : outcome tokens = (.ok (), some (.str 0 "view"), some (.str 0 "edit"), ["edit", "view"]) := by
  decide +kernel

/-- Two files next to each other are in conflict; leaving too often is an error; a permission that is not defined is found out at the end. -/
example : outcome [.enter (some "a"), .one (.guarded "zope.Public" (require "Doc" ["title"])), .leave,
        .enter (some "b"), .one (.guarded "zope.Public" (require "Doc" ["title"])), .leave] = (.err .configurationError, none, none, [])
    ∧ outcome [.leave] = (.err .configurationError, none, none, [])
    ∧ outcome [.one (.guarded "view" (require "Doc" ["title"]))] = (.err .valueError, some (.str 0 "view"), none, []) := by
  decide +kernel

example := C81_load (Ex.X .py) Files.field Shop.naming Files.evs tokens tokens_written start rfl Files.start

/-- A directive in a nested context with a redefinition of its own: the contexts of the state are those of the model. -/
example := C81_element Files.field Shop.naming (.redefine "view" "edit") (.redefine "view" "edit") .redefine
  (s := start) (st := [⟨none, []⟩]) nested_start (by simp) rfl

example := C81_reading Files.field Shop.naming Files.evs tokens tokens_written
  (s := start) (st := [⟨none, []⟩]) nested_start (by simp)

/-- Two permissions of one id in one file are in conflict, whatever their titles. -/
example : resolveConflicts [⟨some (.utility "p"), 0, ["a"], .define "p"⟩, ⟨some (.utility "p"), 0, ["a"], .define "p"⟩] = none
    ∧ sourceResolve [(["a"], rawDefine "p" "one" ""), (["a"], rawDefine "p" "two" "")] = none
    ∧ Paired Shop.naming [⟨some (.utility "p"), 0, ["a"], .define "p"⟩, ⟨some (.utility "p"), 0, ["a"], .define "p"⟩]
      [(["a"], rawDefine "p" "one" ""), (["a"], rawDefine "p" "two" "")] := by
  refine ⟨?_, ?_, paired_append (paired_one .define) (paired_one .define)⟩
  · rw [resolve_eq]; decide +kernel
  · decide +kernel

example (x : Site Unit) := C81_call (Ex.X .py) Shop.naming _ (["a"], rawCheck "view") (.check (path := ["a"])) x

/-- Where the mapping is looked for and changed: dictionary 7 belongs to the enclosing context. -/
def within : St Reading :=
  { start with app := ⟨[], [], [none, some 7]⟩, dicts := fun j => if j = 7 then [("view", .str 0 "edit")] else [], nextId := 8 }

example : Mapped within (some [("view", "edit")]) := rfl

/-- The value is what it has been redefined to; the check is for what was written. -/
example : (readField Files.field "view" within).1 = .ok (.str 0 "edit")
    ∧ (readField Files.field "view" within).2.app.actions.length = 1
    ∧ (readField Files.field "zope.Public" within).2.app.actions.length = 0
    ∧ (readField ⟨fun x => x, fun _ => false⟩ "view" within).1 = .err .configurationError := by
  decide +kernel

example := C81_fromUnicode Files.field (some [("view", "edit")]) "view" within rfl (by intro d hd; cases hd; decide)

/-- A redefinition in the inner context changes the dictionary of the outer one, since `hasattr` finds it. -/
example : (run (zcmlLang Files.field) Zcml.redefinePermission [.sym "_context", strV "a", strV "b"] within).2.dicts 7
      = [("view", .str 0 "edit"), ("a", .str 0 "b")]
    ∧ (run (zcmlLang Files.field) Zcml.redefinePermission [.sym "_context", strV "a", strV "b"] within).2.app.maps = [none, some 7]
    ∧ (run (zcmlLang Files.field) Zcml.redefinePermission [.sym "_context", strV "a", strV "b"]
        { within with app := ⟨[], [], [none, none]⟩ }).2.app.maps = [some 8, none] := by
  rw [C81_redefine, C81_redefine]
  decide +kernel

/-- Permissions registered here and there; `1` is one whose object is false. -/
def registry : Registry where
  utilities := fun
    | .v .none => [("view", 0), ("zope.Public", 0), ("hollow", 1)]
    | _ => [("local", 0)]
  truth := fun u => u = 0
  esc := fun t => t

/-- How a check ended. -/
def checked (c : PV) (p : Val) : Res Unit :=
  match (run (permLang registry) Permission.checkPermission [c, .v p] : M Unit PV) Ex.s0 with
  | (.ok _, _) => .ok ()
  | (.err e, _) => .err e
  | (.diverge, _) => .diverge

/-- The public checker needs no utility; the utilities are those of the context; an object that is false counts as none. -/
example : checked (.v .none) publicV = .ok () ∧ checked (.v .none) (.str 3 "view") = .ok () ∧ checked (.v .none) (.str 3 "hollow") = .err .valueError
    ∧ checked (.v .none) (.str 3 "local") = .err .valueError ∧ checked (.sym "here") (.str 3 "local") = .ok () := by
  decide +kernel

/-- All permissions but zope.Public. -/
example : (run (permLang registry) Permission.allPermissions [] : M Unit PV) = pure (.list [strV "view", strV "hollow"]) :=
  (C81_allPermissions registry (.v .none)).2

example (s : St Reading) := C81_validate Files.field "zope.Public" s
example (s : St Reading) := C81_permission Files.field "view" "View" "" s
example (s : St Reading) := C81_securityPolicy Files.field .paranoid s
example (c : PV) := (C81_PermissionsVocabulary registry c : (_ : M Unit PV) = _)
example (c : PV) := (C81_PermissionIdsVocabulary registry c : (_ : M Unit PV) = _)
example (X : Ctx Attrs) (s : St Attrs) := C81_Permission_init X (strV "view") (strV "View") (strV "") s

end ZS.Props.Texts
