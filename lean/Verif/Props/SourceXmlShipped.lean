import Verif.Props.SourceXmlRefused

/-!
# C86: the ZCML files that come with the package, and other cases
-/

namespace ZS.Props
open ZS ZS.PyC ZS.Src ZS.Spec
set_option maxHeartbeats 1000000

variable {A : Type}

/-! ## The files of the package -/

/-- What is inside an element. -/
def Xml.inside : Xml → List Xml
  | .el _ _ _ ch => ch

/-- An inclusion of the file `f`, with the elements of the file. -/
def including (f : String) (l : List Xml) : Xml → Xml
  | .el ns n a ch => if n = "include" ∧ a = [("file", f)] then .el ns n a l else .el ns n a ch

/-- configure.zcml, included from somewhere, with permissions.zcml included in it; the other inclusions are of
files that only define directives. -/
def shippedFiles : Xml :=
  .el zopeNs "include" [("file", "configure.zcml"), ("package", "zope.security")]
    ((Xml.inside Src.configureZcml).map (including "permissions.zcml" (Xml.inside Src.permissionsZcml)))

/-- What the names in configure.zcml refer to. -/
structure Ships (F : Fields) : Prop where
  cls : F.resolve ".permission.Permission" = some (.v (.type "Permission"))
  strip : F.id.strip ".permission.Permission" = ".permission.Permission"
  interface : F.resolve ".interfaces.IPermission" = some (.iface iPermission)
  split : F.split ".interfaces.IPermission" = [".interfaces.IPermission"]
  other : F.other zopeNs "utility" = true

/-- What the files say. -/
def shippedEvents : List Ev :=
  [.enter (some "configure.zcml"), .enter (some "meta.zcml"), .leave, .enter (some "meta.zcml"), .leave, .cls "Permission" (.allow [] [some iPermission]),
   .enter (some "permissions.zcml"), .enter (some "meta.zcml"), .leave,
   .permission "zope.Public", .permission "zope.View", .permission "zope.Security", .permission "zope.ManageContent",
   .permission "zope.ManageServices", .permission "zope.ManageSite", .leave, .leave]

theorem shipped_events (F : Fields) (h : Ships F) : events F none shippedFiles = some shippedEvents := by
  have hc : classIn F (some ".permission.Permission") = some "Permission" := by
    unfold classIn objectIn
    simp only [h.strip]
    rw [if_neg (by decide), h.cls]
  have hi : interfacesIn F (some ".interfaces.IPermission") = some [iPermission] := by
    unfold interfacesIn
    simp only [h.split, List.mapM_cons, List.mapM_nil]
    have : interfaceIn F ".interfaces.IPermission" = some iPermission := by
      unfold interfaceIn
      rw [if_neg (by decide), h.interface]
    rw [this]
    rfl
  have hs : subEvents F "Permission" [.el zopeNs "allow" [("interface", ".interfaces.IPermission")] []] = some [.cls "Permission" (.allow [] [some iPermission])] := by
    simp only [subEvents, subEvent, allowEvent]
    rw [if_neg (by decide), if_pos trivial, if_pos (by decide)]
    have h1 : ([("interface", ".interfaces.IPermission")] : List (String × String)).lookup "attributes" = none := rfl
    have h2 : ([("interface", ".interfaces.IPermission")] : List (String × String)).lookup "interface" = some ".interfaces.IPermission" := rfl
    simp only [h1, h2, hi, namesIn]
    rfl
  have hm : ∀ p, events F none (.el zopeNs "include" [("file", "meta.zcml"), ("package", p)] []) = some [.enter (some "meta.zcml"), .leave] := by
    intro p
    unfold events
    rw [if_neg (by decide), if_pos rfl]
    simp only [eventss]
    rfl
  have hu : ∀ a, events F none (.el zopeNs "utility" a []) = some [] := by
    intro a
    unfold events
    rw [if_neg (by decide), if_neg (by decide), if_neg (by decide), if_neg (by decide), if_pos List.isEmpty_nil]
    unfold plainEvent
    rw [if_neg (by decide), if_neg (by decide), if_neg (by decide), if_neg (by decide), if_neg (by decide)]
    simp only [h.other]
    rfl
  have hp : ∀ i t, events F none (.el zopeNs "permission" [("id", i), ("title", t)] []) = some [.permission i] := by
    intro i t
    unfold events
    rw [if_neg (by decide), if_neg (by decide), if_neg (by decide), if_neg (by decide), if_pos List.isEmpty_nil]
    unfold plainEvent
    rw [if_pos ⟨rfl, rfl⟩]
    unfold permissionEvent
    rw [if_pos (by intro p hp; rcases List.mem_cons.mp hp with rfl | hp; · simp
                   rcases List.mem_cons.mp hp with rfl | hp; · simp
                   cases hp)]
    rfl
  have hp' : ∀ i t d, events F none (.el zopeNs "permission" [("id", i), ("title", t), ("description", d)] []) = some [.permission i] := by
    intro i t d
    unfold events
    rw [if_neg (by decide), if_neg (by decide), if_neg (by decide), if_neg (by decide), if_pos List.isEmpty_nil]
    unfold plainEvent
    rw [if_pos ⟨rfl, rfl⟩]
    unfold permissionEvent
    rw [if_pos (by intro p hp; rcases List.mem_cons.mp hp with rfl | hp; · simp
                   rcases List.mem_cons.mp hp with rfl | hp; · simp
                   rcases List.mem_cons.mp hp with rfl | hp; · simp
                   cases hp)]
    rfl
  have hcl : events F none (.el zopeNs "class" [("class", ".permission.Permission")] [.el zopeNs "allow" [("interface", ".interfaces.IPermission")] []])
      = some [.cls "Permission" (.allow [] [some iPermission])] := by
    unfold events
    rw [if_neg (by decide), if_neg (by decide), if_pos ⟨rfl, rfl⟩, if_pos (by decide)]
    rw [show ([("class", ".permission.Permission")] : List (String × String)).lookup "class" = some ".permission.Permission" from rfl, hc]
    exact hs
  have hinc : events F none (.el zopeNs "include" [("file", "permissions.zcml")] (Xml.inside Src.permissionsZcml)) = some
      [.enter (some "permissions.zcml"), .enter (some "meta.zcml"), .leave,
       .permission "zope.Public", .permission "zope.View", .permission "zope.Security", .permission "zope.ManageContent",
       .permission "zope.ManageServices", .permission "zope.ManageSite", .leave] := by
    unfold events
    rw [if_neg (by decide), if_pos rfl]
    simp only [Xml.inside, Src.permissionsZcml, eventss, hm, hp, hp']
    rfl
  have hl : (Xml.inside Src.configureZcml).map (including "permissions.zcml" (Xml.inside Src.permissionsZcml)) =
    [.el zopeNs "include" [("file", "meta.zcml"), ("package", "zope.component")] [],
    .el zopeNs "include" [("file", "meta.zcml"), ("package", "zope.security")] [],
    .el zopeNs "utility" [("component", ".permission.PermissionsVocabulary"), ("provides", "zope.schema.interfaces.IVocabularyFactory"), ("name", "Permissions")] [],
    .el zopeNs "utility" [("component", ".permission.PermissionIdsVocabulary"), ("provides", "zope.schema.interfaces.IVocabularyFactory"), ("name", "Permission Ids")] [],
    .el zopeNs "class" [("class", ".permission.Permission")]
     [.el zopeNs "allow" [("interface", ".interfaces.IPermission")] []],
    .el zopeNs "include" [("file", "permissions.zcml")] (Xml.inside Src.permissionsZcml)] := by rfl
  unfold shippedFiles
  rw [hl]
  unfold events
  rw [if_neg (by decide), if_pos rfl]
  simp only [eventss, hm, hu, hcl, hinc]
  rfl

/-! ## Inclusions of files with no directives -/

theorem readEv_some {f : IdField} {st st' : List Frame} {e : Ev} {l : List FAction} (h : readEv f st e = .ok (st', l)) (hst : st ≠ []) : st' ≠ [] := by
  have hsame : ∀ d : Ev, (match readDirective f st d with
      | .ok (some (d, l)) =>
        match emitIn (currentPath st) d with
        | .ok l' => .ok (st, l ++ l')
        | .err e => .err e
        | .diverge => .diverge
      | .ok none => .ok (st, [])
      | .err e => .err e
      | .diverge => .diverge : Res (List Frame × List FAction)) = .ok (st', l) → st' ≠ [] := by
    intro d h
    split at h
    · split at h
      · cases h; exact hst
      · cases h
      · cases h
    · cases h; exact hst
    · cases h
    · cases h
  unfold readEv at h
  cases e with
  | enter file => cases h; simp
  | leave =>
    simp only at h
    split at h
    · cases h; simp
    · cases h
  | permission raw =>
    simp only at h
    split at h
    · cases h; exact hst
    · cases h
  | redefine a b =>
    simp only at h
    split at h
    · split at h
      · cases h
        intro h0
        have := congrArg (List.map Frame.path) h0
        rw [redefine_path] at this
        cases st with
        | nil => exact hst rfl
        | cons _ _ => cases this
      · cases h
      · cases h
    · cases h
    · cases h
  | policy p => cases h; exact hst
  | cls t sub => exact hsame _ h
  | mod m sub => exact hsame _ h

/-- The same is read from here on. -/
def SameRead (f : IdField) (r r' : List Ev) : Prop := ∀ st : List Frame, st ≠ [] → readEvs f st r = readEvs f st r'

theorem SameRead.cons {f : IdField} {r r' : List Ev} (e : Ev) (h : SameRead f r r') : SameRead f (e :: r) (e :: r') := by
  intro st hst
  unfold readEvs
  cases he : readEv f st e with
  | ok x =>
    obtain ⟨st', l⟩ := x
    simp only
    rw [h st' (readEv_some he hst)]
  | err _ => rfl
  | diverge => rfl

theorem SameRead.skip {f : IdField} {r r' : List Ev} (file : Option String) (h : SameRead f r r') : SameRead f (.enter file :: .leave :: r) r' := by
  intro st hst
  rw [← h st hst]
  have hcons : ∀ (st : List Frame) (e : Ev) (r : List Ev), readEvs f st (e :: r) = following f r (readEv f st e) := by
    intro st e r
    conv => lhs; unfold readEvs
    unfold following
    rfl
  match st, hst with
  | c :: st, _ =>
    rw [hcons, show readEv f (c :: st) (.enter file) = .ok (⟨none, currentPath (c :: st) ++ file.toList⟩ :: c :: st, []) from rfl]
    unfold following
    simp only
    rw [hcons, show readEv f (⟨none, currentPath (c :: st) ++ file.toList⟩ :: c :: st) .leave = .ok (c :: st, []) from rfl]
    unfold following
    simp only
    cases readEvs f (c :: st) r <;> rfl

theorem shipped_same (f : IdField) : SameRead f shippedEvents shipped :=
  .cons _ (.skip _ (.skip _ (.cons _ (.cons _ (.skip _ fun _ _ => rfl)))))

/-- **C86** Loading configure.zcml and permissions.zcml as they are in the package, by what meta.zcml, the schemas and the source say: it succeeds, defines exactly the
six permissions, makes exactly the three attributes of `IPermission` readable for everybody on permissions, and changes nothing else. -/
theorem C86_shipped (X : Ctx A) (F : Fields) (N : Naming) (hF : Ships F) (r0 : St Reading) (h0 : r0.app.maps = [none]) (E : Ext) (a : A) (u : Utilities)
    (hf : ∀ id ∈ shippedIds, F.id.strip id = id) (hv : ∀ id ∈ shippedIds, F.id.valid id = true) :
    ∃ x', xmlLoad X F N r0 shippedFiles ⟨initial E a, u⟩ = (.ok (), x')
      ∧ (∀ id, Registered x'.utilities id ↔ Registered u id ∨ id ∈ shippedIds)
      ∧ (∀ n, required false x'.state (.ty "Permission") n
          = if n = "id" ∨ n = "title" ∨ n = "description" then some publicV else none)
      ∧ (∀ n, required true x'.state (.ty "Permission") n = none)
      ∧ (∀ k w n, k ≠ .ty "Permission" → required w x'.state k n = required w (initial E a) k n)
      ∧ x'.state.policy = .paranoid := by
  rw [C86_load X F N shippedFiles shippedEvents (shipped_events F hF) r0 h0,
    show loadFile F.id shippedEvents ⟨initial E a, u⟩ = loadFile F.id shipped ⟨initial E a, u⟩ by
      unfold loadFile; rw [shipped_same F.id _ (by simp)]]
  exact C68_shipped E a u F.id hf hv

/-- **C86** Any file without mistakes and conflicts is carried out completely; it is loaded without exception exactly if all the permissions that are written in it
are registered then. -/
theorem C86_carried_out (X : Ctx A) (F : Fields) (N : Naming) (r0 : St Reading) (h0 : r0.app.maps = [none]) (doc : Xml) (evs : List Ev)
    (he : events F none doc = some evs) (x : Site A) (hr : Readable F.id evs) (hs : Unambiguous F.id evs) (hh : Heap x.state) (hready : SiteReady F.id evs x.state) :
    ∃ x', CarriedOut F.id evs x x' ∧ (xmlLoad X F N r0 doc x).2 = x'
      ∧ (xmlLoad X F N r0 doc x = (.ok (), x') ↔ ∀ id, Needs F.id evs id → Registered x'.utilities id) := by
  rw [C86_load X F N doc evs he r0 h0]
  obtain ⟨x', h1, h2⟩ := C68_carried_out F.id evs x hr hs hh hready
  refine ⟨x', h1, ?_, h2⟩
  rcases h1 with h1 | h1 <;> rw [h1]

end ZS.Props

namespace ZS.Props.Markup
open ZS ZS.PyC ZS.Src ZS.Spec

/-- Two words, or one; some names. -/
def fields : Fields where
  id := Files.field
  split := fun t => if t = "title body" then ["title", "body"] else if t = "* IDoc" then ["*", "IDoc"] else [t]
  identifier := fun t => t ≠ "*"
  resolve := fun t =>
    if t = ".Doc" then some (.v (.type "Doc"))
    else if t = ".Page" then some (.v (.type "Page"))
    else if t = "tools" then some (.v (.module "tools"))
    else if t = "IDoc" then some (.iface [("title", .notField)])
    else if t = ".permission.Permission" then some (.v (.type "Permission"))
    else if t = ".interfaces.IPermission" then some (.iface iPermission)
    else none
  message := fun t => t
  other := fun _ n => n = "utility"

theorem ships : Ships fields := ⟨rfl, rfl, rfl, rfl, rfl⟩

/-- A file with a permission, a class, a module and an inclusion. -/
def page (sub inMod : List Xml) : Xml :=
  .el zopeNs "configure" []
    [.el zopeNs "permission" [("id", "view"), ("title", "View")] [],
     .el zopeNs "permission" [("id", "edit"), ("title", "Edit"), ("description", "Changing")] [],
     .el zopeNs "class" [("class", ".Doc")] sub,
     .el zopeNs "module" [("module", "tools")] inMod,
     .el zopeNs "include" [("file", "a.zcml")] [.el metaNs "redefinePermission" [("from", "view"), ("to", "edit")] []]]

/-- `require` with a permission and attributes, about a class and about a module. -/
def doc : Xml :=
  page [.el zopeNs "require" [("permission", "view"), ("attributes", "title body")] []]
    [.el zopeNs "require" [("permission", "view"), ("attributes", "run")] []]

/-- What it means. -/
def meant : List Ev :=
  [.enter none, .permission "view", .permission "edit", .cls "Doc" (.require ⟨some "view", ["title", "body"], [], none, [], []⟩), .enter none,
   .mod "tools" (.require "view" ["run"] []), .leave, .enter (some "a.zcml"), .redefine "view" "edit", .leave, .leave]

theorem doc_meant : events fields none doc = some meant := by rfl

/-- What is required after loading. -/
def outcome (d : Xml) : Res Unit × Option Val × Option Val × Option Val × List String :=
  let r := xmlLoad (Ex.X .py) fields Shop.naming Texts.start d Files.start
  (r.1, required false r.2.state (.ty "Doc") "title", required false r.2.state (.ty "Doc") "body", required false r.2.state (.mod "tools") "run", r.2.utilities.map (·.1))

example : outcome doc = (.ok (), some (.str 0 "view"), some (.str 0 "view"), some (.str 0 "view"), ["edit", "view"]) := by decide +kernel

example := C86_reading fields Shop.naming doc meant doc_meant Texts.start rfl

example := C86_load (Ex.X .py) fields Shop.naming doc meant doc_meant Texts.start rfl Files.start

/-- A permission, and a class with an attribute. -/
def short : Xml :=
  .el zopeNs "configure" []
    [.el zopeNs "permission" [("id", "view"), ("title", "View")] [],
     .el zopeNs "class" [("class", ".Doc")] [.el zopeNs "require" [("permission", "view"), ("attributes", "title")] []]]

/-- What it means. -/
def shortly : List Ev := [.enter none, .permission "view", .cls "Doc" (.require ⟨some "view", ["title"], [], none, [], []⟩), .leave]

theorem short_means : events fields none short = some shortly := by rfl

theorem short_readable : Readable fields.id shortly := by
  intro i e he x hw
  match i, he with
  | 0, he =>
    cases he
    cases hw with
    | given h => cases h
    | directive _ h => cases h
  | 1, he =>
    cases he
    cases hw with
    | permission h => cases h
    | given h => cases h
    | directive _ h => cases h
  | 2, he =>
    cases he
    cases hw with
    | given h h' => cases h'
    | directive _ h h' =>
      cases h with
      | require hp hs =>
        cases hp
        have hs : StandsFor fields.id [] "view" _ := hs
        cases hs
        cases h' with
        | nothing h => exact absurd h (by simp [Nothing])
        | noPermission _ h => exact absurd h (by simp [NoPermission])
        | noSchema _ h => cases h
      | requireNothing h => cases h
  | 3, he =>
    cases he
    cases hw with
    | leave h => revert h; decide
    | given h => cases h
    | directive _ h => cases h
  | n + 4, he => simp [shortly] at he

theorem short_settled : Unambiguous fields.id shortly := by
  refine settled_of_once (fun x => match x with | .permission _ => 1 | _ => 2) fun i e x he ht => ?_
  match i, he with
  | 0, he => cases he; cases x <;> exact absurd ht (by simp [times])
  | 1, he =>
    cases he
    cases x with
    | permission id =>
      refine ⟨rfl, ?_⟩
      simp only [times] at ht ⊢
      split at ht <;> simp_all
    | requirement k w n => exact absurd ht (by cases w <;> simp [times])
    | policy => exact absurd ht (by simp [times])
  | 2, he =>
    cases he
    cases x with
    | permission id => exact absurd ht (by simp [times])
    | policy => exact absurd ht (by simp [times])
    | requirement k w n =>
      refine ⟨rfl, ?_⟩
      cases w with
      | true => exact absurd ht (by simp [times, inSchemas])
      | false =>
        simp only [times, inInterfaces, List.filterMap_nil, List.map_nil, List.sum_nil, Nat.add_zero] at ht ⊢
        split at ht
        · next h =>
          rw [if_pos h]
          rw [List.count_singleton] at ht ⊢
          split at ht <;> simp_all
        · omega
  | 3, he => cases he; cases x <;> exact absurd ht (by simp [times])
  | n + 4, he => simp [shortly] at he

theorem short_ready : SiteReady fields.id shortly (initial Ex.ext ()) := by
  have hnone : (initial Ex.ext ()).reg.get? (.ty "Doc") = none := by
    show (PyDict.update (PyDict.update [] defaultCheckers) basicTypes).get? (.ty "Doc") = none
    decide
  rintro i π d ⟨e, he, hm, _⟩
  have hd : about d = .ty "Doc" ∧ ∀ u, ¬ LikeClass d u := by
    match i, he with
    | 0, he => cases he; cases hm
    | 1, he => cases he; cases hm
    | 2, he =>
      cases he
      cases hm with
      | require => exact ⟨rfl, fun u hu => by cases hu with | like h => cases h⟩
      | requireNothing h => cases h
    | 3, he => cases he; cases hm
    | n + 4, he => simp [shortly] at he
  rw [hd.1]
  refine ⟨⟨fun c hc => ?_, fun c g st hc => ?_⟩, fun u hu => absurd hu (hd.2 u)⟩
  · rw [hnone] at hc; cases hc
  · rw [hnone] at hc; cases hc

example := C86_carried_out (Ex.X .py) fields Shop.naming Texts.start rfl short shortly short_means ⟨initial Ex.ext (), []⟩ short_readable short_settled
  (heap_initial Ex.ext ()) short_ready

example := C86_shipped (Ex.X .py) fields Shop.naming ships Texts.start rfl Ex.ext () []
  (fun _ _ => rfl) (fun _ _ => rfl)

/-- `like_class` together with other arguments is accepted, although metadirectives.py:98-104 says that no other argument can be used with it. -/
example : (outcome (page [.el zopeNs "require" [("permission", "view"), ("attributes", "title"), ("like_class", ".Page")] []] [])).1 = .ok () := by
  decide +kernel

/-- `allow` takes both attributes at once, although metadirectives.py says that only one may be used. -/
example : outcome (page [.el zopeNs "allow" [("attributes", "body"), ("interface", "IDoc")] []] []) = (.ok (), some publicV, some publicV, none, ["edit", "view"]) := by
  decide +kernel

/-- A misspelt attribute: nothing is configured. -/
def misspelt : Xml := page [.el zopeNs "require" [("permision", "view"), ("attributes", "title")] []] []

theorem misspelt_unknown : ¬ known fields misspelt := by
  intro h
  have h1 : knowns fields _ := h
  have h2 : known fields _ := h1.2.2.1
  obtain ⟨l, h3, h4⟩ : knownSub _ := h2.2 _ (List.mem_singleton.mpr rfl)
  cases h3
  exact absurd (h4.1 ("permision", "view") (by simp)) (by decide)

example := C86_refused (Ex.X .py) fields Shop.naming misspelt misspelt_unknown Texts.start Files.start

/-- So with a permission without title, an unknown directive, a module's `require` with an interface, and `*`. -/
example : (outcome misspelt = (.err .configurationError, none, none, none, []))
    ∧ (outcome (.el zopeNs "permission" [("id", "view")] []) = (.err .configurationError, none, none, none, [])) :=
  ⟨by decide +kernel, by decide +kernel⟩

example : outcome (.el zopeNs "permision" [("id", "view"), ("title", "View")] []) = (.err .configurationError, none, none, none, []) := by decide +kernel

example : outcome (page [] [.el zopeNs "require" [("permission", "view"), ("interface", "IDoc")] []]) = (.err .configurationError, none, none, none, []) := by
  decide +kernel

example : outcome (page [.el zopeNs "allow" [("interface", "* IDoc")] []] []) = (.err .configurationError, none, none, none, []) := by decide +kernel

/-- The schema of `permission` with an id, a title and no description; its handler. -/
example : ∃ kws s', toargs (xconvert fields) Src.IPermissionDirective [("title", "View"), ("id", "view")] Texts.start = (.ok kws, s') ∧ kws.map (·.1) = ["id", "title"] :=
  ⟨_, _, rfl, rfl⟩

example := C86_signatures ⟨zopeNs, "permission", "zope.security.zcml.IPermissionDirective", "zope.security.zcml.permission", .simple⟩
  (by rw [C86_directives]; simp) _ (List.mem_singleton.mpr rfl)

example := C86_module_interface fields Shop.naming [⟨[], none⟩] [("permission", "view"), ("interface", "IDoc")] ⟨("interface", "IDoc"), by simp, rfl⟩

example := C86_star fields "interface" false "* IDoc" (by decide)

end ZS.Props.Markup
