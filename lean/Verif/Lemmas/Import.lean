import Verif.Model.Import

/-! Machinery for C73: what the module-level code of a module leaves behind, found by
executing the statements on what is known of the names, and the proof that real
executions agree, whatever fails. -/

namespace ZS.Imp

/-- A value without the number of the execution that made it. -/
inductive AV
  | made (m : Mod) (what : Name)
  | static (m : Mod) (what : Name)
  | get (d : AV)
  | module (m : Mod)
  | flag (b : Bool)
  deriving DecidableEq, Repr

def erase : Val → AV
  | .made m w _ => .made m w
  | .static m w => .static m w
  | .get d => .get (erase d)
  | .module m => .module m
  | .flag b => .flag b

abbrev ANs := List (Name × AV)

def ANs.look : ANs → Name → Option AV
  | [], _ => none
  | (x, v) :: r, n => if x = n then some v else ANs.look r n

def ANs.drop : ANs → Name → ANs
  | [], _ => []
  | (x, v) :: r, n => if x = n then ANs.drop r n else (x, v) :: ANs.drop r n

/-- What is known: some names, and modules whose body has run to its end. -/
structure Abs where
  names : ANs
  loaded : List Mod
  deriving DecidableEq, Repr

def Abs.put (A : Abs) (x : Name) : Option AV → Abs
  | some v => { A with names := (x, v) :: A.names.drop x }
  | none => { A with names := A.names.drop x }

def Abs.learn (A : Abs) (m t : Mod) : Abs :=
  if t.rank < m.rank then { A with loaded := t :: A.loaded } else A

/-- The permission of public names, a proxy. -/
def pub : AV := .made .checker "CheckerPublic"

def own' (m : Mod) (l : List Name) : ANs := l.map fun n => (n, .made m n)

def statics (m : Mod) (l : List Name) : ANs := l.map fun n => (n, .static m n)

/-- What a module that was imported successfully is known to contain. -/
def finals (p w : Bool) : Mod → List Abs
  | .i18n => [⟨own' .i18n ["ZopeMessageFactory"], []⟩]
  | .compat => [⟨[("PURE_PYTHON", .flag p)], []⟩]
  | .cproxy => [⟨statics .cproxy ["getChecker", "getObject", "_Proxy"] ++
      cproxyStrings.map fun q => (q.1, .made .cproxy q.2), []⟩]
  | .interfaces =>
      [⟨own' .interfaces ["Unauthorized", "ForbiddenAttribute", "PUBLIC_PERMISSION_NAME",
        "NoInteraction"], []⟩]
  | .defs => [⟨own' .defs ["thread_local", "system_user"], []⟩]
  | .proxy =>
      ⟨[("_c_available", .flag false), ("Proxy", .made .proxy "ProxyPy"),
        ("getChecker", .made .proxy "getCheckerPy"), ("getObject", .made .proxy "getObjectPy"),
        ("removeSecurityProxy", .made .proxy "getObjectPy")], []⟩ ::
      if p then [] else
      [⟨[("_c_available", .flag true), ("Proxy", .static .cproxy "_Proxy"),
        ("getChecker", .static .cproxy "getChecker"), ("getObject", .static .cproxy "getObject"),
        ("removeSecurityProxy", .static .cproxy "getObject")], [.cproxy]⟩]
  | .cchecker =>
      [⟨statics .cchecker ["selectChecker", "Checker"] ++
        own' .cchecker ["_defaultChecker", "_checkers", "NoProxy", "_available_by_default"] ++
        [("str_checkPermission", .made .cchecker "checkPermission"),
         ("str___Security_checker__", .made .cchecker "__Security_checker__"),
         ("str_interaction", .made .cchecker "interaction"), ("Proxy", .static .cproxy "_Proxy"), ("thread_local", .made .defs "thread_local"),
         ("ForbiddenAttribute", .made .interfaces "ForbiddenAttribute"),
         ("Unauthorized", .made .interfaces "Unauthorized"), ("CheckerPublic", pub)],
        [.cproxy, .defs, .interfaces]⟩]
  | .checker =>
      let common : ANs :=
        [("thread_local", .made .defs "thread_local"),
         ("ForbiddenAttribute", .made .interfaces "ForbiddenAttribute"),
         ("Unauthorized", .made .interfaces "Unauthorized"),
         ("CheckerPublic", pub), ("CP_HACK_XXX", .made .checker "Global"),
         ("NamesChecker.permission_id", pub), ("InterfaceChecker.permission_id", pub),
         ("CheckerPublic.checker.type", .made .checker "CheckerPy")] ++
        own' .checker ["canAccess", "canWrite", "ProxyFactory", "defineChecker",
          "getCheckerForInstancesOf", "moduleChecker"] ++
        (if w then [("Checker", .made .checker "WatchingChecker"),
           ("CombinedChecker", .made .checker "WatchingCombinedChecker")]
         else [("CombinedChecker", .made .checker "CombinedChecker")])
      ⟨[("_c_available", .flag false), ("CombinedChecker.base", .made .checker "CheckerPy"),
        ("WatchingChecker.base", .made .checker "CheckerPy"),
        ("selectChecker", .made .checker "selectCheckerPy"),
        ("_getChecker", .get (.made .checker "_checkers")),
        ("_default_checkers[Proxy]", .made .checker "NoProxy")] ++
        own' .checker ["NoProxy", "_checkers", "_defaultChecker", "_available_by_default"] ++
        (if w then [] else [("Checker", .made .checker "CheckerPy")]) ++ common,
        [.compat, .defs, .interfaces, .proxy]⟩ ::
      if p then [] else
      [⟨[("_c_available", .flag true), ("CombinedChecker.base", .static .cchecker "Checker"),
        ("WatchingChecker.base", .static .cchecker "Checker"),
        ("selectChecker", .static .cchecker "selectChecker"),
        ("_getChecker", .get (.made .cchecker "_checkers")),
        ("_default_checkers[Proxy]", .made .cchecker "NoProxy")] ++
        own' .cchecker ["NoProxy", "_checkers", "_defaultChecker", "_available_by_default"] ++
        (if w then [] else [("Checker", .static .cchecker "Checker")]) ++ common,
        [.compat, .defs, .interfaces, .proxy, .cchecker]⟩]
  | .decorator => [⟨[], [.checker, .proxy]⟩]
  | .simplepolicies =>
      [⟨("CheckerPublic", pub) :: ("system_user", .made .defs "system_user") ::
        own' .simplepolicies ["ParanoidSecurityPolicy", "PermissiveSecurityPolicy"],
        [.checker, .defs]⟩]
  | .management =>
      [⟨[("CheckerPublic", pub), ("thread_local", .made .defs "thread_local"),
         ("system_user", .made .defs "system_user"),
         ("ParanoidSecurityPolicy", .made .simplepolicies "ParanoidSecurityPolicy"),
         ("_defaultPolicy", .made .simplepolicies "ParanoidSecurityPolicy"),
         ("checkPermission", .made .management "checkPermission")],
        [.checker, .defs, .simplepolicies]⟩]
  | .permission => [⟨[("CheckerPublic", pub),
      ("zope_Public", .made .interfaces "PUBLIC_PERMISSION_NAME")], [.checker, .interfaces]⟩]
  | .protectclass => [⟨[("CheckerPublic", pub),
      ("zope_Public", .made .interfaces "PUBLIC_PERMISSION_NAME"),
      ("defineChecker", .made .checker "defineChecker")], [.checker, .interfaces]⟩]
  | .zcml => [⟨[("zope_Public", .made .interfaces "PUBLIC_PERMISSION_NAME")],
      [.permission, .management, .interfaces]⟩]
  | .testing => [⟨[("PUBLIC_PERMISSION_NAME", .made .interfaces "PUBLIC_PERMISSION_NAME")],
      [.permission, .management, .interfaces]⟩]
  | .adapter => [⟨[("ProxyFactory", .made .checker "ProxyFactory")], [.checker, .proxy]⟩]
  | .metaconfigure => [⟨[("CheckerPublic", pub),
      ("PublicPermission", .made .interfaces "PUBLIC_PERMISSION_NAME"),
      ("defineChecker", .made .checker "defineChecker")],
      [.checker, .interfaces, .protectclass]⟩]
  | .metadirectives => [⟨[], [.zcml]⟩]
  | .pkg => [⟨[("canAccess", .made .checker "canAccess"), ("canWrite", .made .checker "canWrite"),
      ("checkPermission", .made .management "checkPermission")],
      [.decorator, .checker, .management]⟩]

def uniq [DecidableEq α] : List α → List α
  | [] => []
  | a :: r => if a ∈ r then uniq r else a :: uniq r

theorem mem_uniq [DecidableEq α] {a : α} {l : List α} (h : a ∈ l) : a ∈ uniq l := by
  induction l with
  | nil => exact h
  | cons b r ih =>
    unfold uniq
    split
    · rename_i hb
      rcases List.mem_cons.1 h with rfl | h
      · exact ih hb
      · exact ih h
    · rcases List.mem_cons.1 h with rfl | h
      · exact List.mem_cons_self
      · exact List.mem_cons_of_mem _ (ih h)

/-- What a name taken from module `t` can be. -/
def results (p w : Bool) (m t : Mod) (n : Name) : List (Option AV) :=
  if m = .cchecker ∧ t = .checker then [if n = "CheckerPublic" then some pub else none]
  else uniq ((finals p w t).map fun F => F.names.look n)

/-- One statement on what is known. -/
def absStmt (p w : Bool) (m : Mod) (A : Abs) : Stmt → List Abs
  | .work _ => [A]
  | .optional _ => [A]
  | .const x b => [A.put x (some (.flag b))]
  | .new x what _ => [A.put x (some (.made m what))]
  | .static x => [A.put x (some (.static m x))]
  | .alias x y => [A.put x (A.names.look y)]
  | .getOf x y => [A.put x ((A.names.look y).map .get)]
  | .notOf x y => [A.put x (match A.names.look y with
      | some (.flag b) => some (.flag (!b))
      | _ => none)]
  | .del x => [A.put x none]
  | .imp t => [A.learn m t]
  | .frm t n x => (results p w m t n).map fun v => (A.learn m t).put x v
  | .attr t n x => (results p w m t n).map fun v => A.put x v
  | .sub t x => [(A.learn m t).put x (some (.module t))]
  | .setattr _ _ _ => [A]
  | .fill _ _ _ => [A]
  | .tryImp t f => [A.put f (some (.flag false)), A.learn m t]
  | .tryFrm t n x f =>
      A.put f (some (.flag false)) :: (results p w m t n).map fun v => (A.learn m t).put x v

/-- An import that cannot find a module half-initialised, but for `checker` by `cchecker`,
which finds `CheckerPublic`. -/
def okImp (m : Mod) (A : Abs) (t : Mod) : Bool :=
  (decide (t.rank < m.rank) &&
    (decide (t ≠ .cchecker) || (decide (m = .checker) &&
      decide (A.names.look "CheckerPublic" = some pub)))) ||
  (decide (m = .cchecker) && decide (t = .checker))

def okStmt (m : Mod) (A : Abs) : Stmt → Bool
  | .imp t => okImp m A t
  | .frm t _ _ => okImp m A t
  | .attr t _ _ => decide (t ∈ A.loaded) || (decide (m = .cchecker) && decide (t = .checker))
  | .sub t _ => okImp m A t
  | .setattr x n _ =>
      decide (A.names.look x = some (.module .proxy)) && decide (n = "ProxyFactory") &&
      decide (Mod.proxy ∈ A.loaded) && decide (m = .checker)
  | .tryImp t _ => okImp m A t
  | .tryFrm t _ _ _ => okImp m A t
  | .getOf _ _ => !isC m
  | _ => true

def absHolds (A : ANs) : List (Name × Bool) → Option Bool
  | [] => some true
  | (x, b) :: r =>
      match A.look x with
      | some (.flag c) => if c = b then absHolds A r else some false
      | _ => none

/-- Every way the statements can be executed to their end leads to what `goal` accepts. -/
def safe (p w : Bool) (m : Mod) (goal : Abs → Bool) : List Line → Abs → Bool
  | [], A => goal A
  | l :: r, A =>
      match absHolds A.names l.guard with
      | some true => okStmt m A l.stmt && (absStmt p w m A l.stmt).all (safe p w m goal r)
      | some false => safe p w m goal r A
      | none =>
          safe p w m goal r A &&
          (okStmt m A l.stmt && (absStmt p w m A l.stmt).all (safe p w m goal r))

def covers (A F : Abs) : Bool :=
  (F.names.all fun q => decide (A.names.look q.1 = some q.2)) &&
  (F.loaded.all fun t => decide (t ∈ A.loaded))

/-- The body of `m` leads to one of the `finals`. -/
def safeBody (p w : Bool) (m : Mod) : Bool :=
  safe p w m (fun A => (finals p w m).any (covers A)) (body p w m) ⟨[], []⟩

theorem safe_all : ∀ p w m, safeBody p w m = true := by
  intro p w m
  cases p <;> cases w <;> cases m <;> decide +kernel

end ZS.Imp
