import Verif.Model.PyCode

/-!
# The functions of protectclass.py

Written by tools/pysource.py from the text of the file; do not edit.  `_loops` are the
module-level `for` statements, `C.methods` the functions in the body of the class `C`.
-/

namespace ZS.Src.Protectclass
open ZS ZS.PyC

/-- protectclass.py:24-38 -/
def protectName : Fn where
  params := [("class_", none), ("name", none), ("permission", none)]
  star := none
  dstar := none
  body :=
   [.assign (.loc "checker") (.call (.glo "getCheckerForInstancesOf") [.loc "class_"]),
    .if (.cmp .is (.loc "checker") (.none))
     [.assign (.loc "checker") (.call (.glo "Checker") [.dict [], .dict []]),
      .expr (.call (.glo "defineChecker") [.loc "class_", .loc "checker"])]
     [],
    .if (.cmp .eq (.loc "permission") (.glo "zope_Public"))
     [.assign (.loc "permission") (.glo "CheckerPublic")]
     [],
    .assign (.loc "protections") (.attr (.loc "checker") "get_permissions"),
    .assign (.sub (.loc "protections") (.loc "name")) (.loc "permission")]

/-- protectclass.py:41-60 -/
def protectSetAttribute : Fn where
  params := [("class_", none), ("name", none), ("permission", none)]
  star := none
  dstar := none
  body :=
   [.assign (.loc "checker") (.call (.glo "getCheckerForInstancesOf") [.loc "class_"]),
    .if (.cmp .is (.loc "checker") (.none))
     [.assign (.loc "checker") (.call (.glo "Checker") [.dict [], .dict []]),
      .expr (.call (.glo "defineChecker") [.loc "class_", .loc "checker"])]
     [],
    .if (.cmp .eq (.loc "permission") (.glo "zope_Public"))
     [.assign (.loc "permission") (.glo "CheckerPublic")]
     [],
    .assign (.loc "protections") (.attr (.loc "checker") "set_permissions"),
    .assign (.sub (.loc "protections") (.loc "name")) (.loc "permission")]

/-- protectclass.py:63-91 -/
def protectLikeUnto : Fn where
  params := [("class_", none), ("like_unto", none)]
  star := none
  dstar := none
  body :=
   [.assign (.loc "unto_checker") (.call (.glo "getCheckerForInstancesOf") [.loc "like_unto"]),
    .if (.cmp .is (.loc "unto_checker") (.none))
     [.ret .none]
     [],
    .assign (.loc "unto_get_protections") (.attr (.loc "unto_checker") "get_permissions"),
    .assign (.loc "unto_set_protections") (.attr (.loc "unto_checker") "set_permissions"),
    .assign (.loc "checker") (.call (.glo "getCheckerForInstancesOf") [.loc "class_"]),
    .if (.cmp .is (.loc "checker") (.none))
     [.assign (.loc "checker") (.call (.glo "Checker") [.dict [], .dict []]),
      .expr (.call (.glo "defineChecker") [.loc "class_", .loc "checker"])]
     [],
    .assign (.loc "get_protections") (.attr (.loc "checker") "get_permissions"),
    .for (.loc "name") (.loc "unto_get_protections")
     [.assign (.sub (.loc "get_protections") (.loc "name")) (.sub (.loc "unto_get_protections") (.loc "name"))],
    .assign (.loc "set_protections") (.attr (.loc "checker") "set_permissions"),
    .for (.loc "name") (.loc "unto_set_protections")
     [.assign (.sub (.loc "set_protections") (.loc "name")) (.sub (.loc "unto_set_protections") (.loc "name"))]]

end ZS.Src.Protectclass
