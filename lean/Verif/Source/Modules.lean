import Verif.Model.PyTop

/-!
# The module-level code of the Python modules

Written by tools/modsource.py from the text of the files; do not edit.
-/

namespace ZS.Top
namespace Src

/-- i18n.py -/
def i18n : List Top :=
  [.assign "__docformat__" .other [],
   .frm "zope.i18nmessageid" "MessageFactory" "MessageFactory",
   .assign "ZopeMessageFactory" .other ["MessageFactory"]]

/-- _compat.py -/
def compat : List Top :=
  [.imp "os",
   .imp "platform",
   .assign "py_impl" .other ["getattr", "platform"],
   .assign "PYPY" .other ["py_impl"],
   .assign "PURE_PYTHON" .other ["int", "os", "PYPY"],
   .make "implementer_if_needed" []]

/-- interfaces.py -/
def interfaces : List Top :=
  [.frm "zope.interface" "Attribute" "Attribute",
   .frm "zope.interface" "Interface" "Interface",
   .frm "zope.interface" "implementer" "implementer",
   .frm "zope.interface.common.interfaces" "IAttributeError" "IAttributeError",
   .frm "zope.interface.common.interfaces" "IException" "IException",
   .frm "zope.schema" "NativeStringLine" "NativeStringLine",
   .frm "zope.schema" "Text" "Text",
   .frm "zope.schema" "TextLine" "TextLine",
   .frm "zope.security.i18n" "ZopeMessageFactory" "_",
   .assign "PUBLIC_PERMISSION_NAME" .other [],
   .make "IUnauthorized" ["IException"],
   .make "Unauthorized" ["implementer", "IUnauthorized", "Exception"],
   .make "IForbidden" ["IException"],
   .make "Forbidden" ["implementer", "IForbidden", "Exception"],
   .make "IForbiddenAttribute" ["IForbidden", "IAttributeError"],
   .make "ForbiddenAttribute" ["implementer", "IForbiddenAttribute", "Forbidden", "AttributeError"],
   .make "ISecurityManagement" ["Interface"],
   .make "ISecurityChecking" ["Interface"],
   .make "ISecurityProxyFactory" ["Interface"],
   .make "IChecker" ["Interface"],
   .make "INameBasedChecker" ["IChecker"],
   .make "ISecurityPolicy" ["Interface"],
   .make "IInteraction" ["Interface", "Attribute"],
   .make "IParticipation" ["Interface", "Attribute"],
   .make "NoInteraction" ["Exception"],
   .make "IInteractionManagement" ["Interface"],
   .make "IPrincipal" ["Interface", "TextLine", "_", "Text"],
   .make "ISystemPrincipal" ["IPrincipal"],
   .make "IGroupAwarePrincipal" ["IPrincipal", "Attribute"],
   .make "IGroupClosureAwarePrincipal" ["IGroupAwarePrincipal", "Attribute"],
   .make "IGroup" ["IPrincipal"],
   .make "IMemberGetterGroup" ["IGroup"],
   .make "IMemberAwareGroup" ["IMemberGetterGroup"],
   .make "IPermission" ["Interface", "NativeStringLine", "_", "TextLine", "Text"]]

/-- _definitions.py -/
def definitions : List Top :=
  [.imp "threading",
   .imp "zope.interface",
   .frm "zope.security" "interfaces" "interfaces",
   .assign "thread_local" .other ["threading"],
   .make "SystemUser" ["zope", "interfaces"],
   .assign "system_user" .other ["SystemUser"]]

/-- proxy.py -/
def proxy : List Top :=
  [.imp "functools",
   .imp "sys",
   .frm "zope.proxy" "PyProxyBase" "PyProxyBase",
   .frm "zope.security._compat" "PURE_PYTHON" "PURE_PYTHON",
   .make "_check_name" [],
   .make "_check_name_inplace" [],
   .make "_fmt_address" [],
   .make "ProxyPy" ["PyProxyBase"],
   .work ["getattr", "PyProxyBase", "name", "setattr", "ProxyPy", "_check_name", "meth", "super", "functools"] ["name", "meth"],
   .work ["getattr", "PyProxyBase", "name", "setattr", "ProxyPy", "_check_name", "meth", "super", "functools"] ["name", "meth"],
   .work ["getattr", "PyProxyBase", "name", "setattr", "ProxyPy", "_check_name_inplace", "meth", "super", "functools"] ["name", "meth"],
   .make "getCheckerPy" [],
   .assign "_builtin_isinstance" .other ["sys"],
   .make "getObjectPy" [],
   .assign "_c_available" (.not "PURE_PYTHON") ["PURE_PYTHON"],
   .ite (.name "_c_available")
     [.tryexc
        [.frm "zope.security._proxy" "_Proxy" "_Proxy"]
        ["ImportError", "AttributeError"]
        [.assign "_c_available" (.bool false) []]
        []]
     [],
   .assign "getChecker" (.name "getCheckerPy") ["getCheckerPy"],
   .assign "getObject" (.name "getObjectPy") ["getObjectPy"],
   .assign "Proxy" (.name "ProxyPy") ["ProxyPy"],
   .ite (.name "_c_available")
     [.frm "zope.security._proxy" "getChecker" "getChecker",
      .frm "zope.security._proxy" "getObject" "getObject",
      .assign "Proxy" (.name "_Proxy") ["_Proxy"]]
     [],
   .assign "removeSecurityProxy" (.name "getObject") ["getObject"],
   .make "getTestProxyItems" [],
   .make "isinstance" []]

/-- checker.py -/
def checker : List Top :=
  [.imp "abc",
   .imp "datetime",
   .imp "decimal",
   .imp "io",
   .imp "os",
   .imp "sys",
   .imp "types",
   .imp "weakref",
   .imp "zope.interface.declarations",
   .imp "zope.interface.interface",
   .imp "zope.interface.interfaces",
   .frm "zope.i18nmessageid" "Message" "Message",
   .frm "zope.interface" "Interface" "Interface",
   .frm "zope.interface" "directlyProvides" "directlyProvides",
   .frm "zope.interface" "implementer" "implementer",
   .frm "zope.interface.interfaces" "IDeclaration" "IDeclaration",
   .frm "zope.interface.interfaces" "IInterface" "IInterface",
   .frm "zope.security._compat" "PURE_PYTHON" "PURE_PYTHON",
   .frm "zope.security._compat" "implementer_if_needed" "implementer_if_needed",
   .frm "zope.security._definitions" "thread_local" "thread_local",
   .frm "zope.security.interfaces" "ForbiddenAttribute" "ForbiddenAttribute",
   .frm "zope.security.interfaces" "IChecker" "IChecker",
   .frm "zope.security.interfaces" "INameBasedChecker" "INameBasedChecker",
   .frm "zope.security.interfaces" "ISecurityProxyFactory" "ISecurityProxyFactory",
   .frm "zope.security.interfaces" "Unauthorized" "Unauthorized",
   .frm "zope.security.proxy" "Proxy" "Proxy",
   .frm "zope.security.proxy" "getChecker" "getChecker",
   .tryexc
     [.frm "zope.exceptions" "DuplicationError" "DuplicationError"]
     ["ImportError"]
     [.make "DuplicationError" ["Exception"]]
     [],
   .assign "WATCH_CHECKERS" .other [],
   .ite (.other ["os"])
     [.tryexc
        [.assign "WATCH_CHECKERS" .other ["int", "os"]]
        ["ValueError"]
        [.assign "WATCH_CHECKERS" .other []]
        []]
     [],
   .make "ProxyFactory" [],
   .work ["directlyProvides", "ProxyFactory", "ISecurityProxyFactory"] [],
   .frm "zope.security" "proxy" "proxy",
   .setattr "proxy" "ProxyFactory" ["ProxyFactory"],
   .make "canWrite" [],
   .make "canAccess" [],
   .make "CheckerPy" ["implementer", "INameBasedChecker"],
   .assign "Checker" (.name "CheckerPy") ["CheckerPy"],
   .make "TracebackSupplement" [],
   .make "Global" [],
   .assign "CheckerPublic" .other ["Global"],
   .assign "CP_HACK_XXX" (.name "CheckerPublic") ["CheckerPublic"],
   .assign "d" .other [],
   .assign "CheckerPublic" .other ["Proxy", "CheckerPublic", "Checker", "d"],
   .store "d" ["CheckerPublic"],
   .store "d" ["CheckerPublic"],
   .del "d",
   .make "NamesChecker" ["CheckerPublic"],
   .make "InterfaceChecker" ["CheckerPublic"],
   .make "MultiChecker" [],
   .make "selectCheckerPy" [],
   .assign "selectChecker" (.name "selectCheckerPy") ["selectCheckerPy"],
   .make "getCheckerForInstancesOf" [],
   .assign "DEFINABLE_TYPES" .other ["type", "types"],
   .make "defineChecker" [],
   .make "undefineChecker" [],
   .assign "NoProxy" .other ["object"],
   .assign "_checkers" .other [],
   .assign "_defaultChecker" .other ["Checker"],
   .assign "_available_by_default" .other [],
   .assign "_c_available" (.not "PURE_PYTHON") ["PURE_PYTHON"],
   .ite (.name "_c_available")
     [.tryexc
        [.imp "zope.security._zope_security_checker"]
        ["ImportError", "AttributeError"]
        [.assign "_c_available" (.bool false) []]
        []]
     [],
   .ite (.name "_c_available")
     [.frm "zope.security._zope_security_checker" "Checker" "Checker",
      .frm "zope.security._zope_security_checker" "NoProxy" "NoProxy",
      .frm "zope.security._zope_security_checker" "_available_by_default" "_available_by_default",
      .frm "zope.security._zope_security_checker" "_checkers" "_checkers",
      .frm "zope.security._zope_security_checker" "_defaultChecker" "_defaultChecker",
      .frm "zope.security._zope_security_checker" "selectChecker" "selectChecker",
      .work ["zope", "Checker", "INameBasedChecker"] []]
     [],
   .assign "_getChecker" (.attr "_checkers" "get") ["_checkers"],
   .make "CombinedChecker" ["implementer_if_needed", "IChecker", "Checker"],
   .make "CheckerLoggingMixin" ["sys"],
   .make "WatchingChecker" ["CheckerLoggingMixin", "Checker", "WATCH_CHECKERS"],
   .make "WatchingCombinedChecker" ["CombinedChecker", "WatchingChecker", "WATCH_CHECKERS"],
   .ite (.name "WATCH_CHECKERS")
     [.assign "Checker" (.name "WatchingChecker") ["WatchingChecker"],
      .assign "CombinedChecker" (.name "WatchingCombinedChecker") ["WatchingCombinedChecker"],
      .ite (.not "_c_available")
        [.setattr "_defaultChecker" "__class__" ["Checker"]]
        []]
     [],
   .make "_instanceChecker" [],
   .make "moduleChecker" [],
   .store "_available_by_default" [],
   .assign "_callableChecker" .other ["NamesChecker", "DuplicationError", "Checker"],
   .assign "_typeChecker" .other ["NamesChecker", "DuplicationError", "Checker"],
   .assign "_namedChecker" .other ["NamesChecker", "DuplicationError", "Checker"],
   .assign "_iteratorChecker" .other ["NamesChecker", "DuplicationError", "Checker"],
   .assign "_setChecker" .other ["NamesChecker", "DuplicationError", "Checker"],
   .make "_BasicTypes" ["dict"],
   .assign "_basic_types" .other ["object", "int", "float", "complex", "type", "str", "bytes", "Message", "bool", "datetime", "NoProxy"],
   .tryexc
     [.imp "pytz"]
     ["ImportError"]
     []
     [.store "_basic_types" ["NoProxy"]],
   .assign "BasicTypes" .other ["_BasicTypes", "_basic_types"],
   .del "_basic_types",
   .assign "BasicTypes_examples" .other ["object", "int", "float", "complex", "type", "bytes", "bool", "datetime", "Message"],
   .make "_Sequence" [],
   .assign "_Declaration_checker" .other ["InterfaceChecker", "IDeclaration", "CheckerPublic", "DuplicationError", "Checker", "NamesChecker"],
   .make "f" [],
   .assign "_default_checkers" .other ["dict", "list", "set", "frozenset", "decimal", "tuple", "Proxy", "type", "weakref", "_Sequence", "types", "io", "iter", "f", "Interface", "zope", "abc", "NamesChecker", "DuplicationError", "Checker", "_setChecker", "NoProxy", "_callableChecker", "_typeChecker", "_iteratorChecker", "InterfaceChecker", "IInterface", "CheckerPublic", "_Declaration_checker"],
   .make "_fixup_dictlike" [],
   .make "_fixup_odict" [],
   .work ["_fixup_odict", "type", "_default_checkers", "_iteratorChecker", "getattr", "iter", "_fixup_dictlike"] [],
   .del "_fixup_odict",
   .tryexc
     [.imp "BTrees"]
     ["ImportError"]
     []
     [.make "_fixup_btrees" [],
      .work ["_fixup_btrees", "_iteratorChecker", "_default_checkers", "type", "getattr", "iter", "_fixup_dictlike"] [],
      .del "_fixup_btrees"],
   .del "_fixup_dictlike",
   .make "_fixup_zope_interface" [],
   .work ["_fixup_zope_interface", "Interface", "implementer", "NoProxy", "_default_checkers", "type"] [],
   .del "_fixup_zope_interface",
   .make "_fixup_itertools" [],
   .work ["_fixup_itertools", "type", "_default_checkers", "_iteratorChecker", "list", "getattr"] [],
   .del "_fixup_itertools",
   .make "_clear" [],
   .work ["_clear", "_checkers", "_default_checkers", "BasicTypes"] [],
   .tryexc
     [.frm "zope.testing.cleanup" "addCleanUp" "addCleanUp"]
     ["ImportError"]
     []
     [.work ["addCleanUp", "_clear"] []]]

/-- decorator.py -/
def decorator : List Top :=
  [.frm "zope.proxy" "ProxyBase" "ProxyBase",
   .frm "zope.proxy" "getProxiedObject" "getProxiedObject",
   .frm "zope.proxy.decorator" "SpecificationDecoratorBase" "SpecificationDecoratorBase",
   .frm "zope.security.checker" "CombinedChecker" "CombinedChecker",
   .frm "zope.security.checker" "selectChecker" "selectChecker",
   .frm "zope.security.proxy" "Proxy" "Proxy",
   .frm "zope.security.proxy" "getChecker" "getChecker",
   .make "DecoratedSecurityCheckerDescriptor" [],
   .make "SecurityCheckerDecoratorBase" ["ProxyBase", "DecoratedSecurityCheckerDescriptor"],
   .make "DecoratorBase" ["SpecificationDecoratorBase", "SecurityCheckerDecoratorBase"],
   .imp "zope.location.location",
   .work ["DecoratedSecurityCheckerDescriptor", "zope"] []]

/-- simplepolicies.py -/
def simplepolicies : List Top :=
  [.imp "zope.interface",
   .frm "zope.security._definitions" "system_user" "system_user",
   .frm "zope.security.checker" "CheckerPublic" "CheckerPublic",
   .frm "zope.security.interfaces" "IInteraction" "IInteraction",
   .frm "zope.security.interfaces" "ISecurityPolicy" "ISecurityPolicy",
   .make "ParanoidSecurityPolicy" ["zope", "IInteraction", "ISecurityPolicy"],
   .make "PermissiveSecurityPolicy" ["zope", "ISecurityPolicy", "ParanoidSecurityPolicy"]]

/-- management.py -/
def management : List Top :=
  [.frm "zope.interface" "moduleProvides" "moduleProvides",
   .frm "zope.security._definitions" "system_user" "system_user",
   .frm "zope.security._definitions" "thread_local" "thread_local",
   .frm "zope.security.checker" "CheckerPublic" "CheckerPublic",
   .frm "zope.security.interfaces" "IInteractionManagement" "IInteractionManagement",
   .frm "zope.security.interfaces" "ISecurityManagement" "ISecurityManagement",
   .frm "zope.security.interfaces" "NoInteraction" "NoInteraction",
   .frm "zope.security.simplepolicies" "ParanoidSecurityPolicy" "ParanoidSecurityPolicy",
   .assign "__all__" .other [],
   .assign "_defaultPolicy" (.name "ParanoidSecurityPolicy") ["ParanoidSecurityPolicy"],
   .work ["moduleProvides", "ISecurityManagement", "IInteractionManagement"] [],
   .make "getSecurityPolicy" [],
   .make "setSecurityPolicy" [],
   .make "queryInteraction" [],
   .make "getInteraction" [],
   .make "ExistingInteraction" ["ValueError", "AssertionError"],
   .make "newInteraction" [],
   .make "endInteraction" [],
   .make "restoreInteraction" [],
   .make "checkPermission" [],
   .make "_clear" [],
   .tryexc
     [.frm "zope.testing.cleanup" "addCleanUp" "addCleanUp"]
     ["ImportError"]
     []
     [.work ["addCleanUp", "_clear"] [],
      .work ["addCleanUp", "endInteraction"] []]]

/-- permission.py -/
def permission : List Top :=
  [.assign "__docformat__" .other [],
   .imp "operator",
   .frm "zope.component" "getUtilitiesFor" "getUtilitiesFor",
   .frm "zope.component" "queryUtility" "queryUtility",
   .frm "zope.interface" "directlyProvides" "directlyProvides",
   .frm "zope.interface" "implementer" "implementer",
   .frm "zope.schema.interfaces" "IVocabularyFactory" "IVocabularyFactory",
   .frm "zope.schema.vocabulary" "SimpleTerm" "SimpleTerm",
   .frm "zope.schema.vocabulary" "SimpleVocabulary" "SimpleVocabulary",
   .frm "zope.security.checker" "CheckerPublic" "CheckerPublic",
   .frm "zope.security.interfaces" "PUBLIC_PERMISSION_NAME" "zope_Public",
   .frm "zope.security.interfaces" "IPermission" "IPermission",
   .make "Permission" ["implementer", "IPermission"],
   .make "checkPermission" [],
   .make "allPermissions" [],
   .make "PermissionsVocabulary" [],
   .work ["directlyProvides", "PermissionsVocabulary", "IVocabularyFactory"] [],
   .make "PermissionIdsVocabulary" [],
   .work ["directlyProvides", "PermissionIdsVocabulary", "IVocabularyFactory"] []]

/-- protectclass.py -/
def protectclass : List Top :=
  [.frm "zope.security.checker" "Checker" "Checker",
   .frm "zope.security.checker" "CheckerPublic" "CheckerPublic",
   .frm "zope.security.checker" "defineChecker" "defineChecker",
   .frm "zope.security.checker" "getCheckerForInstancesOf" "getCheckerForInstancesOf",
   .frm "zope.security.interfaces" "PUBLIC_PERMISSION_NAME" "zope_Public",
   .make "protectName" [],
   .make "protectSetAttribute" [],
   .make "protectLikeUnto" []]

/-- zcml.py -/
def zcml : List Top :=
  [.assign "__docformat__" .other [],
   .frm "zope.configuration.fields" "GlobalObject" "GlobalObject",
   .frm "zope.configuration.fields" "MessageID" "MessageID",
   .frm "zope.interface" "Interface" "Interface",
   .frm "zope.schema" "Id" "Id",
   .frm "zope.schema.interfaces" "IFromUnicode" "IFromUnicode",
   .frm "zope.security._compat" "implementer_if_needed" "implementer_if_needed",
   .frm "zope.security.interfaces" "PUBLIC_PERMISSION_NAME" "zope_Public",
   .frm "zope.security.management" "setSecurityPolicy" "setSecurityPolicy",
   .frm "zope.security.permission" "checkPermission" "checkPermission",
   .make "Permission" ["implementer_if_needed", "IFromUnicode", "Id"],
   .make "ISecurityPolicyDirective" ["Interface", "GlobalObject"],
   .make "securityPolicy" [],
   .make "IPermissionDirective" ["Interface", "Id", "MessageID"],
   .make "permission" [],
   .make "IRedefinePermission" ["Interface", "Permission"],
   .make "redefinePermission" []]

/-- testing.py -/
def testing : List Top :=
  [.imp "contextlib",
   .imp "zope.security.management",
   .frm "zope" "component" "component",
   .frm "zope" "interface" "interface",
   .frm "zope.security" "interfaces" "interfaces",
   .frm "zope.security.interfaces" "PUBLIC_PERMISSION_NAME" "PUBLIC_PERMISSION_NAME",
   .frm "zope.security.permission" "Permission" "Permission",
   .make "Principal" ["interface", "interfaces"],
   .make "Participation" ["interface", "interfaces"],
   .make "addCheckerPublic" [],
   .make "create_interaction" [],
   .make "interaction" ["contextlib"]]

/-- adapter.py -/
def adapter : List Top :=
  [.frm "zope.location" "ILocation" "ILocation",
   .frm "zope.location" "LocationProxy" "LocationProxy",
   .frm "zope.security.checker" "ProxyFactory" "ProxyFactory",
   .frm "zope.security.proxy" "removeSecurityProxy" "removeSecurityProxy",
   .make "assertLocation" [],
   .make "LocatingTrustedAdapterFactory" [],
   .make "TrustedAdapterFactory" ["LocatingTrustedAdapterFactory"],
   .make "LocatingUntrustedAdapterFactory" []]

/-- metaconfigure.py -/
def metaconfigure : List Top :=
  [.assign "__docformat__" .other [],
   .frm "types" "ModuleType" "ModuleType",
   .frm "zope.component.factory" "Factory" "Factory",
   .frm "zope.component.interface" "provideInterface" "provideInterface",
   .frm "zope.component.interfaces" "IFactory" "IFactory",
   .frm "zope.component.zcml" "utility" "utility",
   .frm "zope.configuration.exceptions" "ConfigurationError" "ConfigurationError",
   .frm "zope.interface" "classImplements" "classImplements",
   .frm "zope.schema.interfaces" "IField" "IField",
   .frm "zope.security.checker" "Checker" "Checker",
   .frm "zope.security.checker" "CheckerPublic" "CheckerPublic",
   .frm "zope.security.checker" "defineChecker" "defineChecker",
   .frm "zope.security.checker" "moduleChecker" "moduleChecker",
   .frm "zope.security.interfaces" "PUBLIC_PERMISSION_NAME" "PublicPermission",
   .frm "zope.security.protectclass" "protectLikeUnto" "protectLikeUnto",
   .frm "zope.security.protectclass" "protectName" "protectName",
   .frm "zope.security.protectclass" "protectSetAttribute" "protectSetAttribute",
   .make "dottedName" [],
   .make "ProtectionDeclarationException" ["Exception"],
   .make "ClassDirective" [],
   .make "protectModule" [],
   .make "_names" [],
   .make "allow" [],
   .make "require" []]

/-- metadirectives.py -/
def metadirectives : List Top :=
  [.assign "__docformat__" .other [],
   .imp "zope.configuration.fields",
   .imp "zope.interface",
   .imp "zope.schema",
   .frm "zope.configuration.fields" "GlobalInterface" "GlobalInterface",
   .frm "zope.configuration.fields" "GlobalObject" "GlobalObject",
   .frm "zope.configuration.fields" "PythonIdentifier" "PythonIdentifier",
   .frm "zope.configuration.fields" "Tokens" "Tokens",
   .frm "zope.interface" "Interface" "Interface",
   .imp "zope.security.zcml",
   .frm "zope.security.i18n" "ZopeMessageFactory" "_",
   .frm "zope.security.zcml" "Permission" "Permission",
   .make "IClassDirective" ["zope", "_"],
   .make "IImplementsSubdirective" ["zope", "_"],
   .make "IRequireSubdirective" ["zope", "_"],
   .make "IAllowSubdirective" ["zope", "_"],
   .make "IFactorySubdirective" ["zope", "_"],
   .make "IModule" ["Interface", "GlobalObject"],
   .make "IAllow" ["Interface", "Tokens", "PythonIdentifier", "GlobalInterface"],
   .make "IRequire" ["Interface", "Tokens", "PythonIdentifier", "Permission"]]

/-- __init__.py -/
def init : List Top :=
  [.imp "zope.security.decorator",
   .frm "zope.security.checker" "canAccess" "canAccess",
   .frm "zope.security.checker" "canWrite" "canWrite",
   .frm "zope.security.management" "checkPermission" "checkPermission"]

end Src
end ZS.Top
