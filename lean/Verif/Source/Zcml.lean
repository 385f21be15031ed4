import Verif.Model.PyCode

/-!
# The functions of zcml.py

Written by tools/pysource.py from the text of the file; do not edit.  `_loops` are the
module-level `for` statements, `C.methods` the functions in the body of the class `C`.
-/

namespace ZS.Src.Zcml
open ZS ZS.PyC

/-- zcml.py:35-39 -/
def Permission.fromUnicode : Fn where
  params := [("self", none), ("value", none)]
  star := none
  dstar := none
  body :=
   [.assign (.loc "u") (.call (.attr (.call (.glo "super") []) "fromUnicode") [.loc "value"]),
    .assign (.loc "map") (.call (.glo "getattr") [.attr (.loc "self") "context", .str "permission_mapping", .dict []]),
    .ret (.call (.attr (.loc "map") "get") [.loc "u", .loc "u"])]

/-- zcml.py:41-57 -/
def Permission._validate : Fn where
  params := [("self", none), ("value", none)]
  star := none
  dstar := none
  body :=
   [.expr (.call (.attr (.call (.glo "super") []) "_validate") [.loc "value"]),
    .if (.cmp .ne (.loc "value") (.glo "zope_Public"))
     [.expr (.call (.attr (.attr (.loc "self") "context") "action") [.kw "discriminator" (.none), .kw "callable" (.glo "checkPermission"), .kw "args" (.tuple [.none, .loc "value"]), .kw "order" (.num (9999999))])]
     []]

/-- zcml.py:69-74 -/
def securityPolicy : Fn where
  params := [("_context", none), ("component", none)]
  star := none
  dstar := none
  body :=
   [.expr (.call (.attr (.loc "_context") "action") [.kw "discriminator" (.str "defaultPolicy"), .kw "callable" (.glo "setSecurityPolicy"), .kw "args" (.tuple [.loc "component"])])]

/-- zcml.py:96-102 -/
def permission : Fn where
  params := [("_context", none), ("id", none), ("title", none), ("description", some (.str ""))]
  star := none
  dstar := none
  body :=
   [.assign (.loc "utility") (.glo "zope.component.zcml.utility"),
    .assign (.loc "IPermission") (.glo "zope.security.interfaces.IPermission"),
    .assign (.loc "Permission") (.glo "zope.security.permission.Permission"),
    .assign (.loc "permission") (.call (.loc "Permission") [.loc "id", .loc "title", .loc "description"]),
    .expr (.call (.loc "utility") [.loc "_context", .loc "IPermission", .loc "permission", .kw "name" (.loc "id")])]

/-- zcml.py:119-126 -/
def redefinePermission : Fn where
  params := [("_context", none), ("from_", none), ("to", none)]
  star := none
  dstar := none
  body :=
   [.assign (.loc "_context") (.attr (.loc "_context") "context"),
    .if (.not (.call (.glo "hasattr") [.loc "_context", .str "permission_mapping"]))
     [.assign (.attr (.loc "_context") "permission_mapping") (.dict [])]
     [],
    .assign (.sub (.attr (.loc "_context") "permission_mapping") (.loc "from_")) (.loc "to")]

/-- zcml.py:31-57 -/
def Permission.methods : List (Name × Fn) :=
  [("fromUnicode", Permission.fromUnicode),
   ("_validate", Permission._validate)]

end ZS.Src.Zcml
