import Verif.Model.PyCode

/-!
# The functions of permission.py

Written by tools/pysource.py from the text of the file; do not edit.  `_loops` are the
module-level `for` statements, `C.methods` the functions in the body of the class `C`.
-/

namespace ZS.Src.Permission
open ZS ZS.PyC

/-- permission.py:39-42 -/
def Permission.__init__ : Fn where
  params := [("self", none), ("id", none), ("title", some (.str "")), ("description", some (.str ""))]
  star := none
  dstar := none
  body :=
   [.assign (.attr (.loc "self") "id") (.loc "id"),
    .assign (.attr (.loc "self") "title") (.loc "title"),
    .assign (.attr (.loc "self") "description") (.loc "description")]

/-- permission.py:45-53 -/
def checkPermission : Fn where
  params := [("context", none), ("permission_id", none)]
  star := none
  dstar := none
  body :=
   [.if (.cmp .is (.loc "permission_id") (.glo "CheckerPublic"))
     [.ret .none]
     [],
    .if (.not (.call (.glo "queryUtility") [.glo "IPermission", .loc "permission_id", .kw "context" (.loc "context")]))
     [.raise (.call (.glo "ValueError") [.str "Undefined permission ID", .loc "permission_id"])]
     []]

/-- permission.py:56-62 -/
def allPermissions : Fn where
  params := [("context", some (.none))]
  star := none
  dstar := none
  body :=
   [.assign (.loc "%yield") (.list []),
    .for (.tuple [.loc "name", .loc "_permission"]) (.call (.glo "getUtilitiesFor") [.glo "IPermission", .loc "context"])
     [.if (.cmp .ne (.loc "name") (.glo "zope_Public"))
       [.aug "+" (.loc "%yield") (.list [.loc "name"])]
       []],
    .ret (.loc "%yield")]

/-- permission.py:65-74 -/
def PermissionsVocabulary : Fn where
  params := [("context", some (.none))]
  star := none
  dstar := none
  body :=
   [.assign (.loc "terms") (.list []),
    .for (.tuple [.loc "name", .loc "permission"]) (.call (.glo "getUtilitiesFor") [.glo "IPermission", .loc "context"])
     [.aug "+" (.loc "terms") (.list [.call (.glo "SimpleTerm") [.loc "permission", .loc "name"]])],
    .ret (.call (.glo "SimpleVocabulary") [.loc "terms"])]

/-- permission.py:80-107 -/
def PermissionIdsVocabulary : Fn where
  params := [("context", some (.none))]
  star := none
  dstar := none
  body :=
   [.assign (.loc "terms") (.list []),
    .assign (.loc "has_public") (.false),
    .for (.tuple [.loc "name", .loc "_permission"]) (.call (.glo "getUtilitiesFor") [.glo "IPermission", .loc "context"])
     [.if (.cmp .eq (.loc "name") (.glo "zope_Public"))
       [.assign (.loc "has_public") (.true)]
       [.aug "+" (.loc "terms") (.list [.call (.glo "SimpleTerm") [.loc "name", .loc "name", .loc "name"]])]],
    .assign (.loc "terms") (.call (.glo "sorted") [.loc "terms", .kw "key" (.call (.attr (.glo "operator") "attrgetter") [.str "title"])]),
    .if (.loc "has_public")
     [.assign (.loc "terms") (.bin "+" (.list [.call (.glo "SimpleTerm") [.glo "CheckerPublic", .glo "zope_Public", .str "Public"]]) (.loc "terms"))]
     [],
    .ret (.call (.glo "SimpleVocabulary") [.loc "terms"])]

/-- permission.py:34-42 -/
def Permission.methods : List (Name × Fn) :=
  [("__init__", Permission.__init__)]

end ZS.Src.Permission
