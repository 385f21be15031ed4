import Verif.Model.PyCode

/-!
# The functions of metaconfigure.py

Written by tools/pysource.py from the text of the file; do not edit.  `_loops` are the
module-level `for` statements, `C.methods` the functions in the body of the class `C`.
-/

namespace ZS.Src.Metaconfigure
open ZS ZS.PyC

/-- metaconfigure.py:38-41 -/
def dottedName : Fn where
  params := [("klass", none)]
  star := none
  dstar := none
  body :=
   [.if (.cmp .is (.loc "klass") (.none))
     [.ret (.str "None")]
     [],
    .ret (.bin "+" (.bin "+" (.attr (.loc "klass") "__module__") (.str ".")) (.attr (.loc "klass") "__name__"))]

/-- metaconfigure.py:51-56 -/
def ClassDirective.__init__ : Fn where
  params := [("self", none), ("_context", none), ("class_", none)]
  star := none
  dstar := none
  body :=
   [.assign (.attr (.loc "self") "_ClassDirective__id") (.call (.glo "dottedName") [.loc "class_"]),
    .assign (.attr (.loc "self") "_ClassDirective__class") (.loc "class_"),
    .if (.call (.glo "isinstance") [.attr (.loc "self") "_ClassDirective__class", .glo "ModuleType"])
     [.raise (.call (.glo "ConfigurationError") [.str "Content class attribute must be a class"])]
     [],
    .assign (.attr (.loc "self") "_ClassDirective__context") (.loc "_context")]

/-- metaconfigure.py:58-71 -/
def ClassDirective.implements : Fn where
  params := [("self", none), ("_context", none), ("interface", none)]
  star := none
  dstar := none
  body :=
   [.for (.loc "interface") (.loc "interface")
     [.expr (.call (.attr (.loc "_context") "action") [.kw "discriminator" (.tuple [.str "ContentDirective", .attr (.loc "self") "_ClassDirective__class", .call (.glo "object") []]), .kw "callable" (.glo "classImplements"), .kw "args" (.tuple [.attr (.loc "self") "_ClassDirective__class", .loc "interface"])]),
      .expr (.call (.attr (.loc "_context") "action") [.kw "discriminator" (.none), .kw "callable" (.glo "provideInterface"), .kw "args" (.tuple [.bin "+" (.bin "+" (.attr (.loc "interface") "__module__") (.str ".")) (.call (.attr (.loc "interface") "getName") []), .loc "interface"])])]]

/-- metaconfigure.py:73-98 -/
def ClassDirective.require : Fn where
  params := [("self", none), ("_context", none), ("permission", some (.none)), ("attributes", some (.none)), ("interface", some (.none)), ("like_class", some (.none)), ("set_attributes", some (.none)), ("set_schema", some (.none))]
  star := none
  dstar := none
  body :=
   [.if (.loc "like_class")
     [.expr (.call (.attr (.loc "self") "_ClassDirective__mimic") [.loc "_context", .loc "like_class"])]
     [],
    .if (.not (.or (.loc "interface") (.or (.loc "attributes") (.or (.loc "set_attributes") (.loc "set_schema")))))
     [.if (.loc "like_class")
       [.ret .none]
       [],
      .raise (.call (.glo "ConfigurationError") [.str "Nothing required"])]
     [],
    .if (.not (.loc "permission"))
     [.raise (.call (.glo "ConfigurationError") [.str "No permission specified"])]
     [],
    .if (.loc "interface")
     [.for (.loc "i") (.loc "interface")
       [.if (.loc "i")
         [.expr (.call (.attr (.loc "self") "_ClassDirective__protectByInterface") [.loc "i", .loc "permission"])]
         []]]
     [],
    .if (.loc "attributes")
     [.expr (.call (.attr (.loc "self") "_ClassDirective__protectNames") [.loc "attributes", .loc "permission"])]
     [],
    .if (.loc "set_attributes")
     [.expr (.call (.attr (.loc "self") "_ClassDirective__protectSetAttributes") [.loc "set_attributes", .loc "permission"])]
     [],
    .if (.loc "set_schema")
     [.for (.loc "s") (.loc "set_schema")
       [.expr (.call (.attr (.loc "self") "_ClassDirective__protectSetSchema") [.loc "s", .loc "permission"])]]
     []]

/-- metaconfigure.py:100-106 -/
def ClassDirective.__mimic : Fn where
  params := [("self", none), ("_context", none), ("class_", none)]
  star := none
  dstar := none
  body :=
   [.expr (.call (.attr (.loc "_context") "action") [.kw "discriminator" (.tuple [.str "mimic", .attr (.loc "self") "_ClassDirective__class", .call (.glo "object") []]), .kw "callable" (.glo "protectLikeUnto"), .kw "args" (.tuple [.attr (.loc "self") "_ClassDirective__class", .loc "class_"])])]

/-- metaconfigure.py:108-110 -/
def ClassDirective.allow : Fn where
  params := [("self", none), ("_context", none), ("attributes", some (.none)), ("interface", some (.none))]
  star := none
  dstar := none
  body :=
   [.ret (.call (.attr (.loc "self") "require") [.loc "_context", .glo "PublicPermission", .loc "attributes", .loc "interface"])]

/-- metaconfigure.py:112-121 -/
def ClassDirective.__protectByInterface : Fn where
  params := [("self", none), ("interface", none), ("permission_id", none)]
  star := none
  dstar := none
  body :=
   [.for (.tuple [.loc "n", .loc "d"]) (.call (.glo "sorted") [.call (.attr (.loc "interface") "namesAndDescriptions") [.num (1)]])
     [.expr (.call (.attr (.loc "self") "_ClassDirective__protectName") [.loc "n", .loc "permission_id"])],
    .expr (.call (.attr (.attr (.loc "self") "_ClassDirective__context") "action") [.kw "discriminator" (.none), .kw "callable" (.glo "provideInterface"), .kw "args" (.tuple [.bin "+" (.bin "+" (.attr (.loc "interface") "__module__") (.str ".")) (.call (.attr (.loc "interface") "getName") []), .loc "interface"])])]

/-- metaconfigure.py:123-129 -/
def ClassDirective.__protectName : Fn where
  params := [("self", none), ("name", none), ("permission_id", none)]
  star := none
  dstar := none
  body :=
   [.expr (.call (.attr (.attr (.loc "self") "_ClassDirective__context") "action") [.kw "discriminator" (.tuple [.str "protectName", .attr (.loc "self") "_ClassDirective__class", .loc "name"]), .kw "callable" (.glo "protectName"), .kw "args" (.tuple [.attr (.loc "self") "_ClassDirective__class", .loc "name", .loc "permission_id"])])]

/-- metaconfigure.py:131-134 -/
def ClassDirective.__protectNames : Fn where
  params := [("self", none), ("names", none), ("permission_id", none)]
  star := none
  dstar := none
  body :=
   [.for (.loc "name") (.loc "names")
     [.expr (.call (.attr (.loc "self") "_ClassDirective__protectName") [.loc "name", .loc "permission_id"])]]

/-- metaconfigure.py:136-143 -/
def ClassDirective.__protectSetAttributes : Fn where
  params := [("self", none), ("names", none), ("permission_id", none)]
  star := none
  dstar := none
  body :=
   [.for (.loc "name") (.loc "names")
     [.expr (.call (.attr (.attr (.loc "self") "_ClassDirective__context") "action") [.kw "discriminator" (.tuple [.str "protectSetAttribute", .attr (.loc "self") "_ClassDirective__class", .loc "name"]), .kw "callable" (.glo "protectSetAttribute"), .kw "args" (.tuple [.attr (.loc "self") "_ClassDirective__class", .loc "name", .loc "permission_id"])])]]

/-- metaconfigure.py:145-161 -/
def ClassDirective.__protectSetSchema : Fn where
  params := [("self", none), ("schema", none), ("permission_id", none)]
  star := none
  dstar := none
  body :=
   [.assign (.loc "_context") (.attr (.loc "self") "_ClassDirective__context"),
    .for (.loc "name") (.call (.glo "sorted") [.loc "schema"])
     [.assign (.loc "field") (.sub (.loc "schema") (.loc "name")),
      .if (.and (.call (.attr (.glo "IField") "providedBy") [.loc "field"]) (.not (.attr (.loc "field") "readonly")))
       [.expr (.call (.attr (.loc "_context") "action") [.kw "discriminator" (.tuple [.str "protectSetAttribute", .attr (.loc "self") "_ClassDirective__class", .loc "name"]), .kw "callable" (.glo "protectSetAttribute"), .kw "args" (.tuple [.attr (.loc "self") "_ClassDirective__class", .loc "name", .loc "permission_id"])])]
       []],
    .expr (.call (.attr (.loc "_context") "action") [.kw "discriminator" (.none), .kw "callable" (.glo "provideInterface"), .kw "args" (.tuple [.bin "+" (.bin "+" (.attr (.loc "schema") "__module__") (.str ".")) (.call (.attr (.loc "schema") "getName") []), .loc "schema"])])]

/-- metaconfigure.py:163-165 -/
def ClassDirective.__call__ : Fn where
  params := [("self", none)]
  star := none
  dstar := none
  body :=
   [.ret (.tuple [])]

/-- metaconfigure.py:167-177 -/
def ClassDirective.factory : Fn where
  params := [("self", none), ("_context", none), ("id", some (.none)), ("title", some (.str "")), ("description", some (.str ""))]
  star := none
  dstar := none
  body :=
   [.assign (.loc "id") (.or (.loc "id") (.attr (.loc "self") "_ClassDirective__id")),
    .assign (.loc "factoryObj") (.call (.glo "Factory") [.attr (.loc "self") "_ClassDirective__class", .loc "title", .loc "description"]),
    .expr (.call (.glo "utility") [.loc "_context", .glo "IFactory", .loc "factoryObj", .kw "permission" (.glo "PublicPermission"), .kw "name" (.loc "id")])]

/-- metaconfigure.py:180-197 -/
def protectModule : Fn where
  params := [("module", none), ("name", none), ("permission", none)]
  star := none
  dstar := none
  body :=
   [.assign (.loc "checker") (.call (.glo "moduleChecker") [.loc "module"]),
    .if (.cmp .is (.loc "checker") (.none))
     [.assign (.loc "checker") (.call (.glo "Checker") [.dict [], .dict []]),
      .expr (.call (.glo "defineChecker") [.loc "module", .loc "checker"])]
     [],
    .if (.cmp .eq (.loc "permission") (.glo "PublicPermission"))
     [.assign (.loc "permission") (.glo "CheckerPublic")]
     [],
    .assign (.loc "protections") (.attr (.loc "checker") "get_permissions"),
    .assign (.sub (.loc "protections") (.loc "name")) (.loc "permission")]

/-- metaconfigure.py:200-210 -/
def _names : Fn where
  params := [("attributes", none), ("interfaces", none)]
  star := none
  dstar := none
  body :=
   [.assign (.loc "%yield") (.list []),
    .assign (.loc "seen") (.dict []),
    .for (.loc "name") (.loc "attributes")
     [.if (.cmp .notIn (.loc "name") (.loc "seen"))
       [.assign (.sub (.loc "seen") (.loc "name")) (.num (1)),
        .aug "+" (.loc "%yield") (.list [.loc "name"])]
       []],
    .for (.loc "interface") (.loc "interfaces")
     [.for (.loc "name") (.loc "interface")
       [.if (.cmp .notIn (.loc "name") (.loc "seen"))
         [.assign (.sub (.loc "seen") (.loc "name")) (.num (1)),
          .aug "+" (.loc "%yield") (.list [.loc "name"])]
         []]],
    .ret (.loc "%yield")]

/-- metaconfigure.py:213-221 -/
def allow : Fn where
  params := [("context", none), ("attributes", some (.tuple [])), ("interface", some (.tuple []))]
  star := none
  dstar := none
  body :=
   [.for (.loc "name") (.call (.glo "_names") [.loc "attributes", .loc "interface"])
     [.expr (.call (.attr (.loc "context") "action") [.kw "discriminator" (.tuple [.str "http://namespaces.zope.org/zope:module", .attr (.loc "context") "module", .loc "name"]), .kw "callable" (.glo "protectModule"), .kw "args" (.tuple [.attr (.loc "context") "module", .loc "name", .glo "PublicPermission"])])]]

/-- metaconfigure.py:224-231 -/
def require : Fn where
  params := [("context", none), ("permission", none), ("attributes", some (.tuple [])), ("interface", some (.tuple []))]
  star := none
  dstar := none
  body :=
   [.for (.loc "name") (.call (.glo "_names") [.loc "attributes", .loc "interface"])
     [.expr (.call (.attr (.loc "context") "action") [.kw "discriminator" (.tuple [.str "http://namespaces.zope.org/zope:module", .attr (.loc "context") "module", .loc "name"]), .kw "callable" (.glo "protectModule"), .kw "args" (.tuple [.attr (.loc "context") "module", .loc "name", .loc "permission"])])]]

/-- metaconfigure.py:49-177 -/
def ClassDirective.methods : List (Name × Fn) :=
  [("__init__", ClassDirective.__init__),
   ("implements", ClassDirective.implements),
   ("require", ClassDirective.require),
   ("_ClassDirective__mimic", ClassDirective.__mimic),
   ("allow", ClassDirective.allow),
   ("_ClassDirective__protectByInterface", ClassDirective.__protectByInterface),
   ("_ClassDirective__protectName", ClassDirective.__protectName),
   ("_ClassDirective__protectNames", ClassDirective.__protectNames),
   ("_ClassDirective__protectSetAttributes", ClassDirective.__protectSetAttributes),
   ("_ClassDirective__protectSetSchema", ClassDirective.__protectSetSchema),
   ("__call__", ClassDirective.__call__),
   ("factory", ClassDirective.factory)]

end ZS.Src.Metaconfigure
