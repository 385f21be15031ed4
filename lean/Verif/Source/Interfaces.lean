import Verif.Model.PyContract

/-!
# Interfaces, and who declares them

Written by tools/modsource.py from the text of the files; do not edit.
-/

namespace ZS.Contract
namespace Src

def ifaces : List Iface :=
  [⟨"IUnauthorized", ["IException"], [], []⟩,
   ⟨"IForbidden", ["IException"], [], []⟩,
   ⟨"IForbiddenAttribute", ["IForbidden", "IAttributeError"], [], []⟩,
   ⟨"ISecurityManagement", ["Interface"], [("getSecurityPolicy", ⟨0, [], 0, false⟩), ("setSecurityPolicy", ⟨0, ["aSecurityPolicy"], 1, false⟩)], []⟩,
   ⟨"ISecurityChecking", ["Interface"], [("checkPermission", ⟨0, ["permission", "object", "interaction"], 2, false⟩)], []⟩,
   ⟨"ISecurityProxyFactory", ["Interface"], [("__call__", ⟨0, ["object", "checker"], 1, false⟩)], []⟩,
   ⟨"IChecker", ["Interface"], [("check_getattr", ⟨0, ["ob", "name"], 2, false⟩), ("check_setattr", ⟨0, ["ob", "name"], 2, false⟩), ("check", ⟨0, ["ob", "operation"], 2, false⟩), ("proxy", ⟨0, ["value"], 1, false⟩)], []⟩,
   ⟨"INameBasedChecker", ["IChecker"], [("permission_id", ⟨0, ["name"], 1, false⟩), ("setattr_permission_id", ⟨0, ["name"], 1, false⟩)], []⟩,
   ⟨"ISecurityPolicy", ["Interface"], [("__call__", ⟨0, ["participation"], 0, false⟩)], []⟩,
   ⟨"IInteraction", ["Interface"], [("add", ⟨0, ["participation"], 1, false⟩), ("remove", ⟨0, ["participation"], 1, false⟩), ("checkPermission", ⟨0, ["permission", "object"], 2, false⟩)], ["participations"]⟩,
   ⟨"IParticipation", ["Interface"], [], ["interaction", "principal"]⟩,
   ⟨"IInteractionManagement", ["Interface"], [("newInteraction", ⟨0, ["participation"], 0, false⟩), ("queryInteraction", ⟨0, [], 0, false⟩), ("getInteraction", ⟨0, [], 0, false⟩), ("endInteraction", ⟨0, [], 0, false⟩)], []⟩,
   ⟨"IPrincipal", ["Interface"], [], ["id", "title", "description"]⟩,
   ⟨"ISystemPrincipal", ["IPrincipal"], [], []⟩,
   ⟨"IGroupAwarePrincipal", ["IPrincipal"], [], ["groups"]⟩,
   ⟨"IGroupClosureAwarePrincipal", ["IGroupAwarePrincipal"], [], ["allGroups"]⟩,
   ⟨"IGroup", ["IPrincipal"], [], []⟩,
   ⟨"IMemberGetterGroup", ["IGroup"], [("getMembers", ⟨0, [], 0, false⟩)], []⟩,
   ⟨"IMemberAwareGroup", ["IMemberGetterGroup"], [("setMembers", ⟨0, ["value"], 1, false⟩)], []⟩,
   ⟨"IPermission", ["Interface"], [], ["id", "title", "description"]⟩]

def classes : List Cls :=
  [⟨"_compat", "implementer_if_needed", [], [("__init__", ⟨0, ["self"], 1, true⟩), ("__call__", ⟨0, ["self", "cls"], 2, false⟩)], [], ["_ifaces"]⟩,
   ⟨"interfaces", "Unauthorized", ["Exception"], [], [], []⟩,
   ⟨"interfaces", "Forbidden", ["Exception"], [], [], []⟩,
   ⟨"interfaces", "ForbiddenAttribute", ["Forbidden", "AttributeError"], [], [], []⟩,
   ⟨"interfaces", "NoInteraction", ["Exception"], [], [], []⟩,
   ⟨"_definitions", "SystemUser", [], [], [], ["id", "title", "description"]⟩,
   ⟨"proxy", "ProxyPy", ["PyProxyBase"], [("__new__", ⟨0, ["cls", "value", "checker"], 3, false⟩), ("__init__", ⟨0, ["self", "value", "checker"], 3, false⟩), ("__getattribute__", ⟨0, ["self", "name"], 2, false⟩), ("__getattr__", ⟨0, ["self", "name"], 2, false⟩), ("__setattr__", ⟨0, ["self", "name", "value"], 3, false⟩), ("__delattr__", ⟨0, ["self", "name"], 2, false⟩), ("__lt__", ⟨0, ["self", "other"], 2, false⟩), ("__le__", ⟨0, ["self", "other"], 2, false⟩), ("__eq__", ⟨0, ["self", "other"], 2, false⟩), ("__ne__", ⟨0, ["self", "other"], 2, false⟩), ("__ge__", ⟨0, ["self", "other"], 2, false⟩), ("__gt__", ⟨0, ["self", "other"], 2, false⟩), ("__hash__", ⟨0, ["self"], 1, false⟩), ("__bool__", ⟨0, ["self"], 1, false⟩), ("__length_hint__", ⟨0, ["self"], 1, false⟩), ("__str__", ⟨0, ["self"], 1, false⟩), ("__repr__", ⟨0, ["self"], 1, false⟩)], [], ["__slots__", "_wrapped", "_checker"]⟩,
   ⟨"checker", "CheckerPy", [], [("__init__", ⟨0, ["self", "get_permissions", "set_permissions"], 2, false⟩), ("permission_id", ⟨0, ["self", "name"], 2, false⟩), ("setattr_permission_id", ⟨0, ["self", "name"], 2, false⟩), ("check_setattr", ⟨0, ["self", "object", "name"], 3, false⟩), ("check", ⟨0, ["self", "object", "name"], 3, false⟩), ("proxy", ⟨0, ["self", "value"], 2, false⟩)], [("check_getattr", "check")], ["check_getattr", "get_permissions", "set_permissions"]⟩,
   ⟨"checker", "TracebackSupplement", [], [("__init__", ⟨0, ["self", "obj"], 2, false⟩), ("getInfo", ⟨0, ["self"], 1, false⟩)], [], ["obj"]⟩,
   ⟨"checker", "Global", [], [("__init__", ⟨0, ["self", "name", "module"], 2, false⟩), ("__reduce__", ⟨0, ["self"], 1, false⟩), ("__repr__", ⟨0, ["self"], 1, false⟩)], [], ["__name__", "__module__"]⟩,
   ⟨"checker", "CombinedChecker", ["Checker"], [("__init__", ⟨0, ["self", "checker1", "checker2"], 3, false⟩), ("check", ⟨0, ["self", "object", "name"], 3, false⟩), ("check_setattr", ⟨0, ["self", "object", "name"], 3, false⟩)], [("check_getattr", "check"), ("__setitem__", "check")], ["check_getattr", "__setitem__", "_checker2"]⟩,
   ⟨"checker", "CheckerLoggingMixin", [], [("_log", ⟨0, ["self", "msg", "verbosity"], 2, false⟩), ("check", ⟨0, ["self", "object", "name"], 3, false⟩), ("check_getattr", ⟨0, ["self", "object", "name"], 3, false⟩), ("check_setattr", ⟨0, ["self", "object", "name"], 3, false⟩)], [("__setitem__", "check_getattr")], ["verbosity", "_file", "__setitem__"]⟩,
   ⟨"checker", "WatchingChecker", ["CheckerLoggingMixin", "Checker"], [], [("verbosity", "WATCH_CHECKERS")], ["verbosity"]⟩,
   ⟨"checker", "WatchingCombinedChecker", ["CombinedChecker", "WatchingChecker"], [], [("verbosity", "WATCH_CHECKERS")], ["verbosity"]⟩,
   ⟨"checker", "_BasicTypes", ["dict"], [("__setitem__", ⟨0, ["self", "name", "value"], 3, false⟩), ("__delitem__", ⟨0, ["self", "name"], 2, false⟩), ("clear", ⟨0, ["self"], 1, false⟩), ("update", ⟨0, ["self", "d"], 2, false⟩)], [], []⟩,
   ⟨"checker", "_Sequence", [], [("__len__", ⟨0, ["self"], 1, false⟩), ("__getitem__", ⟨0, ["self", "i"], 2, false⟩)], [], []⟩,
   ⟨"decorator", "DecoratedSecurityCheckerDescriptor", [], [("__get__", ⟨0, ["self", "inst", "cls"], 2, false⟩), ("__set__", ⟨0, ["self", "inst", "value"], 3, false⟩)], [], []⟩,
   ⟨"decorator", "SecurityCheckerDecoratorBase", ["ProxyBase"], [], [], ["__Security_checker__"]⟩,
   ⟨"decorator", "DecoratorBase", ["SpecificationDecoratorBase", "SecurityCheckerDecoratorBase"], [], [], []⟩,
   ⟨"simplepolicies", "ParanoidSecurityPolicy", [], [("__init__", ⟨0, ["self"], 1, true⟩), ("add", ⟨0, ["self", "participation"], 2, false⟩), ("remove", ⟨0, ["self", "participation"], 2, false⟩), ("checkPermission", ⟨0, ["self", "permission", "object"], 3, false⟩)], [], ["participations"]⟩,
   ⟨"simplepolicies", "PermissiveSecurityPolicy", ["ParanoidSecurityPolicy"], [("checkPermission", ⟨0, ["self", "permission", "object"], 3, false⟩)], [], []⟩,
   ⟨"management", "ExistingInteraction", ["ValueError", "AssertionError"], [], [], []⟩,
   ⟨"permission", "Permission", [], [("__init__", ⟨0, ["self", "id", "title", "description"], 2, false⟩)], [], ["id", "title", "description"]⟩,
   ⟨"zcml", "Permission", ["Id"], [("fromUnicode", ⟨0, ["self", "value"], 2, false⟩), ("_validate", ⟨0, ["self", "value"], 2, false⟩)], [], []⟩,
   ⟨"zcml", "ISecurityPolicyDirective", ["Interface"], [], [], ["component"]⟩,
   ⟨"zcml", "IPermissionDirective", ["Interface"], [], [], ["id", "title", "description"]⟩,
   ⟨"zcml", "IRedefinePermission", ["Interface"], [], [], ["from_", "to"]⟩,
   ⟨"testing", "Principal", [], [("__init__", ⟨0, ["self", "id", "title", "description", "groups"], 2, false⟩)], [], ["id", "title", "description"]⟩,
   ⟨"testing", "Participation", [], [("__init__", ⟨0, ["self", "principal"], 2, false⟩)], [], ["principal", "interaction"]⟩,
   ⟨"adapter", "LocatingTrustedAdapterFactory", [], [("__init__", ⟨0, ["self", "factory"], 2, false⟩), ("_customizeProtected", ⟨0, ["self", "adapter", "context"], 3, false⟩), ("_customizeUnprotected", ⟨0, ["self", "adapter", "context"], 3, false⟩), ("__call__", ⟨0, ["self"], 1, true⟩)], [], ["factory", "__name__", "__module__"]⟩,
   ⟨"adapter", "TrustedAdapterFactory", ["LocatingTrustedAdapterFactory"], [("_customizeProtected", ⟨0, ["self", "adapter", "context"], 3, false⟩)], [], []⟩,
   ⟨"adapter", "LocatingUntrustedAdapterFactory", [], [("__init__", ⟨0, ["self", "factory"], 2, false⟩), ("__call__", ⟨0, ["self"], 1, true⟩)], [], ["factory", "__name__", "__module__"]⟩,
   ⟨"metaconfigure", "ProtectionDeclarationException", ["Exception"], [], [], []⟩,
   ⟨"metaconfigure", "ClassDirective", [], [("__init__", ⟨0, ["self", "_context", "class_"], 3, false⟩), ("implements", ⟨0, ["self", "_context", "interface"], 3, false⟩), ("require", ⟨0, ["self", "_context", "permission", "attributes", "interface", "like_class", "set_attributes", "set_schema"], 2, false⟩), ("__mimic", ⟨0, ["self", "_context", "class_"], 3, false⟩), ("allow", ⟨0, ["self", "_context", "attributes", "interface"], 2, false⟩), ("__protectByInterface", ⟨0, ["self", "interface", "permission_id"], 3, false⟩), ("__protectName", ⟨0, ["self", "name", "permission_id"], 3, false⟩), ("__protectNames", ⟨0, ["self", "names", "permission_id"], 3, false⟩), ("__protectSetAttributes", ⟨0, ["self", "names", "permission_id"], 3, false⟩), ("__protectSetSchema", ⟨0, ["self", "schema", "permission_id"], 3, false⟩), ("__call__", ⟨0, ["self"], 1, false⟩), ("factory", ⟨0, ["self", "_context", "id", "title", "description"], 2, false⟩)], [], ["__id", "__class", "__context"]⟩,
   ⟨"metadirectives", "IClassDirective", ["Interface"], [], [], ["class_"]⟩,
   ⟨"metadirectives", "IImplementsSubdirective", ["Interface"], [], [], ["interface"]⟩,
   ⟨"metadirectives", "IRequireSubdirective", ["Interface"], [], [], ["permission", "attributes", "set_attributes", "interface", "set_schema", "like_class"]⟩,
   ⟨"metadirectives", "IAllowSubdirective", ["Interface"], [], [], ["attributes", "interface"]⟩,
   ⟨"metadirectives", "IFactorySubdirective", ["Interface"], [], [], ["id", "title", "description"]⟩,
   ⟨"metadirectives", "IModule", ["Interface"], [], [], ["module"]⟩,
   ⟨"metadirectives", "IAllow", ["Interface"], [], [], ["attributes", "interface"]⟩,
   ⟨"metadirectives", "IRequire", ["Interface"], [], [], ["attributes", "permission"]⟩]

def functions : List Fun :=
  [⟨"proxy", "_check_name", ⟨0, ["meth", "wrap_result"], 1, false⟩⟩,
   ⟨"proxy", "_check_name_inplace", ⟨0, ["meth"], 1, false⟩⟩,
   ⟨"proxy", "_fmt_address", ⟨0, ["obj"], 1, false⟩⟩,
   ⟨"proxy", "getCheckerPy", ⟨0, ["proxy"], 1, false⟩⟩,
   ⟨"proxy", "getObjectPy", ⟨0, ["proxy"], 1, false⟩⟩,
   ⟨"proxy", "getTestProxyItems", ⟨0, ["proxy"], 1, false⟩⟩,
   ⟨"proxy", "isinstance", ⟨0, ["object", "cls"], 2, false⟩⟩,
   ⟨"checker", "ProxyFactory", ⟨0, ["object", "checker"], 1, false⟩⟩,
   ⟨"checker", "canWrite", ⟨0, ["obj", "name"], 2, false⟩⟩,
   ⟨"checker", "canAccess", ⟨0, ["obj", "name"], 2, false⟩⟩,
   ⟨"checker", "MultiChecker", ⟨0, ["specs"], 1, false⟩⟩,
   ⟨"checker", "selectCheckerPy", ⟨0, ["object"], 1, false⟩⟩,
   ⟨"checker", "getCheckerForInstancesOf", ⟨0, ["class_"], 1, false⟩⟩,
   ⟨"checker", "defineChecker", ⟨0, ["type_", "checker"], 2, false⟩⟩,
   ⟨"checker", "undefineChecker", ⟨0, ["type_"], 1, false⟩⟩,
   ⟨"checker", "_instanceChecker", ⟨0, ["inst"], 1, false⟩⟩,
   ⟨"checker", "moduleChecker", ⟨0, ["module"], 1, false⟩⟩,
   ⟨"checker", "f", ⟨0, [], 0, false⟩⟩,
   ⟨"checker", "_fixup_dictlike", ⟨0, ["dict_type"], 1, false⟩⟩,
   ⟨"checker", "_fixup_odict", ⟨0, [], 0, false⟩⟩,
   ⟨"checker", "_fixup_zope_interface", ⟨0, [], 0, false⟩⟩,
   ⟨"checker", "_fixup_itertools", ⟨0, [], 0, false⟩⟩,
   ⟨"checker", "_clear", ⟨0, [], 0, false⟩⟩,
   ⟨"management", "getSecurityPolicy", ⟨0, [], 0, false⟩⟩,
   ⟨"management", "setSecurityPolicy", ⟨0, ["aSecurityPolicy"], 1, false⟩⟩,
   ⟨"management", "queryInteraction", ⟨0, [], 0, false⟩⟩,
   ⟨"management", "getInteraction", ⟨0, [], 0, false⟩⟩,
   ⟨"management", "newInteraction", ⟨0, [], 0, true⟩⟩,
   ⟨"management", "endInteraction", ⟨0, [], 0, false⟩⟩,
   ⟨"management", "restoreInteraction", ⟨0, [], 0, false⟩⟩,
   ⟨"management", "checkPermission", ⟨0, ["permission", "object", "interaction"], 2, false⟩⟩,
   ⟨"management", "_clear", ⟨0, [], 0, false⟩⟩,
   ⟨"permission", "checkPermission", ⟨0, ["context", "permission_id"], 2, false⟩⟩,
   ⟨"permission", "allPermissions", ⟨0, ["context"], 0, false⟩⟩,
   ⟨"permission", "PermissionsVocabulary", ⟨0, ["context"], 0, false⟩⟩,
   ⟨"permission", "PermissionIdsVocabulary", ⟨0, ["context"], 0, false⟩⟩,
   ⟨"protectclass", "protectName", ⟨0, ["class_", "name", "permission"], 3, false⟩⟩,
   ⟨"protectclass", "protectSetAttribute", ⟨0, ["class_", "name", "permission"], 3, false⟩⟩,
   ⟨"protectclass", "protectLikeUnto", ⟨0, ["class_", "like_unto"], 2, false⟩⟩,
   ⟨"zcml", "securityPolicy", ⟨0, ["_context", "component"], 2, false⟩⟩,
   ⟨"zcml", "permission", ⟨0, ["_context", "id", "title", "description"], 3, false⟩⟩,
   ⟨"zcml", "redefinePermission", ⟨0, ["_context", "from_", "to"], 3, false⟩⟩,
   ⟨"testing", "addCheckerPublic", ⟨0, [], 0, false⟩⟩,
   ⟨"adapter", "assertLocation", ⟨0, ["adapter", "parent"], 2, false⟩⟩,
   ⟨"metaconfigure", "dottedName", ⟨0, ["klass"], 1, false⟩⟩,
   ⟨"metaconfigure", "protectModule", ⟨0, ["module", "name", "permission"], 3, false⟩⟩,
   ⟨"metaconfigure", "_names", ⟨0, ["attributes", "interfaces"], 2, false⟩⟩,
   ⟨"metaconfigure", "allow", ⟨0, ["context", "attributes", "interface"], 1, false⟩⟩,
   ⟨"metaconfigure", "require", ⟨0, ["context", "permission", "attributes", "interface"], 2, false⟩⟩]

def declared : List Decl :=
  [.cls "interfaces" "Unauthorized" "IUnauthorized",
   .cls "interfaces" "Forbidden" "IForbidden",
   .cls "interfaces" "ForbiddenAttribute" "IForbiddenAttribute",
   .cls "_definitions" "SystemUser" "ISystemPrincipal",
   .obj "checker" "ProxyFactory" "ISecurityProxyFactory",
   .cls "checker" "CheckerPy" "INameBasedChecker",
   .cls "checker" "Checker" "INameBasedChecker",
   .cls "checker" "CombinedChecker" "IChecker",
   .cls "simplepolicies" "ParanoidSecurityPolicy" "IInteraction",
   .obj "simplepolicies" "ParanoidSecurityPolicy" "ISecurityPolicy",
   .obj "simplepolicies" "PermissiveSecurityPolicy" "ISecurityPolicy",
   .mod "management" "ISecurityManagement",
   .mod "management" "IInteractionManagement",
   .cls "permission" "Permission" "IPermission",
   .obj "permission" "PermissionsVocabulary" "IVocabularyFactory",
   .obj "permission" "PermissionIdsVocabulary" "IVocabularyFactory",
   .cls "zcml" "Permission" "IFromUnicode",
   .cls "testing" "Principal" "IPrincipal",
   .cls "testing" "Participation" "IParticipation"]

end Src
end ZS.Contract
