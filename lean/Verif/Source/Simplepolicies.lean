import Verif.Model.PyCode

/-!
# The functions of simplepolicies.py

Written by tools/pysource.py from the text of the file; do not edit.  `_loops` are the
module-level `for` statements, `C.methods` the functions in the body of the class `C`.
-/

namespace ZS.Src.Simplepolicies
open ZS ZS.PyC

/-- simplepolicies.py:41-44 -/
def ParanoidSecurityPolicy.__init__ : Fn where
  params := [("self", none)]
  star := (some "participations")
  dstar := none
  body :=
   [.assign (.attr (.loc "self") "participations") (.list []),
    .for (.loc "participation") (.loc "participations")
     [.expr (.call (.attr (.loc "self") "add") [.loc "participation"])]]

/-- simplepolicies.py:46-51 -/
def ParanoidSecurityPolicy.add : Fn where
  params := [("self", none), ("participation", none)]
  star := none
  dstar := none
  body :=
   [.if (.cmp .isNot (.attr (.loc "participation") "interaction") (.none))
     [.raise (.call (.glo "ValueError") [.bin "%" (.str "%r already belongs to an interaction") (.loc "participation")])]
     [],
    .assign (.attr (.loc "participation") "interaction") (.loc "self"),
    .expr (.call (.attr (.attr (.loc "self") "participations") "append") [.loc "participation"])]

/-- simplepolicies.py:53-58 -/
def ParanoidSecurityPolicy.remove : Fn where
  params := [("self", none), ("participation", none)]
  star := none
  dstar := none
  body :=
   [.if (.cmp .isNot (.attr (.loc "participation") "interaction") (.loc "self"))
     [.raise (.call (.glo "ValueError") [.bin "%" (.str "%r does not belong to this interaction") (.loc "participation")])]
     [],
    .expr (.call (.attr (.attr (.loc "self") "participations") "remove") [.loc "participation"]),
    .assign (.attr (.loc "participation") "interaction") (.none)]

/-- simplepolicies.py:60-68 -/
def ParanoidSecurityPolicy.checkPermission : Fn where
  params := [("self", none), ("permission", none), ("object", none)]
  star := none
  dstar := none
  body :=
   [.if (.cmp .is (.loc "permission") (.glo "CheckerPublic"))
     [.ret (.true)]
     [],
    .assign (.loc "users") (.comp (.attr (.loc "p") "principal") "p" (.attr (.loc "self") "participations") (.cmp .isNot (.attr (.loc "p") "principal") (.glo "system_user"))),
    .ret (.not (.loc "users"))]

/-- simplepolicies.py:77-78 -/
def PermissiveSecurityPolicy.checkPermission : Fn where
  params := [("self", none), ("permission", none), ("object", none)]
  star := none
  dstar := none
  body :=
   [.ret (.true)]

/-- simplepolicies.py:32-68 -/
def ParanoidSecurityPolicy.methods : List (Name × Fn) :=
  [("__init__", ParanoidSecurityPolicy.__init__),
   ("add", ParanoidSecurityPolicy.add),
   ("remove", ParanoidSecurityPolicy.remove),
   ("checkPermission", ParanoidSecurityPolicy.checkPermission)]

/-- simplepolicies.py:72-78 -/
def PermissiveSecurityPolicy.methods : List (Name × Fn) :=
  [("checkPermission", PermissiveSecurityPolicy.checkPermission)]

end ZS.Src.Simplepolicies
