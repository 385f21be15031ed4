import Verif.Model.PyCode

/-!
# The functions of testing.py

Written by tools/pysource.py from the text of the file; do not edit.  `_loops` are the
module-level `for` statements, `C.methods` the functions in the body of the class `C`.
-/

namespace ZS.Src.Testing
open ZS ZS.PyC

/-- testing.py:35-41 -/
def Principal.__init__ : Fn where
  params := [("self", none), ("id", none), ("title", some (.none)), ("description", some (.str "")), ("groups", some (.none))]
  star := none
  dstar := none
  body :=
   [.assign (.attr (.loc "self") "id") (.loc "id"),
    .assign (.attr (.loc "self") "title") (.or (.loc "title") (.loc "id")),
    .assign (.attr (.loc "self") "description") (.loc "description"),
    .if (.cmp .isNot (.loc "groups") (.none))
     [.assign (.attr (.loc "self") "groups") (.loc "groups"),
      .expr (.call (.attr (.glo "interface") "directlyProvides") [.loc "self", .attr (.glo "interfaces") "IGroupAwarePrincipal"])]
     []]

/-- testing.py:51-53 -/
def Participation.__init__ : Fn where
  params := [("self", none), ("principal", none)]
  star := none
  dstar := none
  body :=
   [.assign (.attr (.loc "self") "principal") (.loc "principal"),
    .assign (.attr (.loc "self") "interaction") (.none)]

/-- testing.py:56-74 -/
def addCheckerPublic : Fn where
  params := []
  star := none
  dstar := none
  body :=
   [.assign (.loc "perm") (.call (.glo "Permission") [.glo "PUBLIC_PERMISSION_NAME", .str "Public", .str "Special permission used for resources that are always public\n\n        The public permission is effectively an optimization, sine\n        it allows security computation to be bypassed.\n        "]),
    .assign (.loc "gsm") (.call (.attr (.glo "component") "getGlobalSiteManager") []),
    .expr (.call (.attr (.loc "gsm") "registerUtility") [.loc "perm", .attr (.glo "interfaces") "IPermission", .attr (.loc "perm") "id"]),
    .ret (.loc "perm")]

/-- testing.py:77-87 -/
def create_interaction : Fn where
  params := [("principal_id", none)]
  star := none
  dstar := (some "kw")
  body :=
   [.assign (.loc "principal") (.call (.glo "Principal") [.loc "principal_id", .dstar (.loc "kw")]),
    .assign (.loc "participation") (.call (.glo "Participation") [.loc "principal"]),
    .expr (.call (.attr (.attr (.attr (.glo "zope") "security") "management") "newInteraction") [.loc "participation"]),
    .ret (.loc "principal")]

/-- testing.py:91-104 -/
def interaction : Fn where
  params := [("principal_id", none)]
  star := none
  dstar := (some "kw")
  body :=
   [.if (.call (.attr (.attr (.attr (.glo "zope") "security") "management") "queryInteraction") [])
     [.expr (.call (.glo "%body") [.none])]
     [.assign (.loc "principal") (.call (.glo "create_interaction") [.loc "principal_id", .dstar (.loc "kw")]),
      .try
       [.expr (.call (.glo "%body") [.loc "principal"])]
       []
       []
       [.expr (.call (.attr (.attr (.attr (.glo "zope") "security") "management") "endInteraction") [])]]]

/-- testing.py:30-41 -/
def Principal.methods : List (Name × Fn) :=
  [("__init__", Principal.__init__)]

/-- testing.py:45-53 -/
def Participation.methods : List (Name × Fn) :=
  [("__init__", Participation.__init__)]

end ZS.Src.Testing
