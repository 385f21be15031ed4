import Verif.Model.Xml

/-!
# The ZCML files of the package

Written by tools/zcmlsource.py from the text of the files; do not edit.
-/

namespace ZS.Src
open ZS

/-- meta.zcml -/
def metaZcml : Xml :=
  .el "http://namespaces.zope.org/zope" "configure" []
   [.el "http://namespaces.zope.org/meta" "directive" [("namespace", "http://namespaces.zope.org/zope"), ("name", "permission"), ("schema", ".zcml.IPermissionDirective"), ("handler", ".zcml.permission")] [],
    .el "http://namespaces.zope.org/meta" "directive" [("name", "securityPolicy"), ("namespace", "http://namespaces.zope.org/zope"), ("schema", ".zcml.ISecurityPolicyDirective"), ("handler", ".zcml.securityPolicy")] [],
    .el "http://namespaces.zope.org/meta" "directive" [("name", "redefinePermission"), ("namespace", "http://namespaces.zope.org/meta"), ("schema", ".zcml.IRedefinePermission"), ("handler", ".zcml.redefinePermission")] [],
    .el "http://namespaces.zope.org/meta" "directives" [("namespace", "http://namespaces.zope.org/zope")]
     [.el "http://namespaces.zope.org/meta" "complexDirective" [("name", "class"), ("schema", ".metadirectives.IClassDirective"), ("handler", ".metaconfigure.ClassDirective")]
       [.el "http://namespaces.zope.org/meta" "subdirective" [("name", "implements"), ("schema", ".metadirectives.IImplementsSubdirective")] [],
        .el "http://namespaces.zope.org/meta" "subdirective" [("name", "require"), ("schema", ".metadirectives.IRequireSubdirective")] [],
        .el "http://namespaces.zope.org/meta" "subdirective" [("name", "allow"), ("schema", ".metadirectives.IAllowSubdirective")] [],
        .el "http://namespaces.zope.org/meta" "subdirective" [("name", "factory"), ("schema", ".metadirectives.IFactorySubdirective")] []]],
    .el "http://namespaces.zope.org/meta" "groupingDirective" [("name", "module"), ("namespace", "http://namespaces.zope.org/zope"), ("schema", ".metadirectives.IModule"), ("handler", "zope.configuration.config.GroupingContextDecorator")] [],
    .el "http://namespaces.zope.org/meta" "directive" [("name", "allow"), ("namespace", "http://namespaces.zope.org/zope"), ("schema", ".metadirectives.IAllow"), ("handler", ".metaconfigure.allow")] [],
    .el "http://namespaces.zope.org/meta" "directive" [("name", "require"), ("namespace", "http://namespaces.zope.org/zope"), ("schema", ".metadirectives.IRequire"), ("handler", ".metaconfigure.require")] []]

/-- configure.zcml -/
def configureZcml : Xml :=
  .el "http://namespaces.zope.org/zope" "configure" []
   [.el "http://namespaces.zope.org/zope" "include" [("file", "meta.zcml"), ("package", "zope.component")] [],
    .el "http://namespaces.zope.org/zope" "include" [("file", "meta.zcml"), ("package", "zope.security")] [],
    .el "http://namespaces.zope.org/zope" "utility" [("component", ".permission.PermissionsVocabulary"), ("provides", "zope.schema.interfaces.IVocabularyFactory"), ("name", "Permissions")] [],
    .el "http://namespaces.zope.org/zope" "utility" [("component", ".permission.PermissionIdsVocabulary"), ("provides", "zope.schema.interfaces.IVocabularyFactory"), ("name", "Permission Ids")] [],
    .el "http://namespaces.zope.org/zope" "class" [("class", ".permission.Permission")]
     [.el "http://namespaces.zope.org/zope" "allow" [("interface", ".interfaces.IPermission")] []],
    .el "http://namespaces.zope.org/zope" "include" [("file", "permissions.zcml")] []]

/-- permissions.zcml -/
def permissionsZcml : Xml :=
  .el "http://namespaces.zope.org/zope" "configure" [("i18n_domain", "zope")]
   [.el "http://namespaces.zope.org/zope" "include" [("file", "meta.zcml"), ("package", "zope.security")] [],
    .el "http://namespaces.zope.org/zope" "permission" [("id", "zope.Public"), ("title", "[public-permission] Public"), ("description", "Special permission indicating unconditional access.                    Public resources are always accessible.")] [],
    .el "http://namespaces.zope.org/zope" "permission" [("id", "zope.View"), ("title", "[view-permission] View")] [],
    .el "http://namespaces.zope.org/zope" "permission" [("id", "zope.Security"), ("title", "[change-security-settings-permission] Change security settings")] [],
    .el "http://namespaces.zope.org/zope" "permission" [("id", "zope.ManageContent"), ("title", "[manage-content-permission] Manage Content")] [],
    .el "http://namespaces.zope.org/zope" "permission" [("id", "zope.ManageServices"), ("title", "[manage-services-permission] Manage Services")] [],
    .el "http://namespaces.zope.org/zope" "permission" [("id", "zope.ManageSite"), ("title", "[manage-site-permission] Manage Site")] []]

end ZS.Src
