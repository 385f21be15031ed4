import Verif.Model.Xml

/-!
# The schemas of the directives

Written by tools/zcmlsource.py from the text of metadirectives.py and zcml.py; do not edit.
-/

namespace ZS.Src
open ZS

/-- metadirectives.py:32-38 -/
def IClassDirective : List SField :=
  [⟨"class_", "zope.configuration.fields.GlobalObject", none, true⟩]

/-- metadirectives.py:41-50 -/
def IImplementsSubdirective : List SField :=
  [⟨"interface", "zope.configuration.fields.Tokens", some "zope.configuration.fields.GlobalInterface", true⟩]

/-- metadirectives.py:53-105 -/
def IRequireSubdirective : List SField :=
  [⟨"permission", "zope.security.zcml.Permission", none, false⟩,
   ⟨"attributes", "zope.configuration.fields.Tokens", some "zope.configuration.fields.PythonIdentifier", false⟩,
   ⟨"set_attributes", "zope.configuration.fields.Tokens", some "zope.configuration.fields.PythonIdentifier", false⟩,
   ⟨"interface", "zope.configuration.fields.Tokens", some "zope.configuration.fields.GlobalInterface", false⟩,
   ⟨"set_schema", "zope.configuration.fields.Tokens", some "zope.configuration.fields.GlobalInterface", false⟩,
   ⟨"like_class", "zope.configuration.fields.GlobalObject", none, false⟩]

/-- metadirectives.py:108-125 -/
def IAllowSubdirective : List SField :=
  [⟨"attributes", "zope.configuration.fields.Tokens", some "zope.configuration.fields.PythonIdentifier", false⟩,
   ⟨"interface", "zope.configuration.fields.Tokens", some "zope.configuration.fields.GlobalInterface", false⟩]

/-- metadirectives.py:128-152 -/
def IFactorySubdirective : List SField :=
  [⟨"id", "zope.schema.Id", none, false⟩,
   ⟨"title", "zope.configuration.fields.MessageID", none, false⟩,
   ⟨"description", "zope.configuration.fields.MessageID", none, false⟩]

/-- metadirectives.py:155-161 -/
def IModule : List SField :=
  [⟨"module", "zope.configuration.fields.GlobalObject", none, true⟩]

/-- metadirectives.py:164-184 -/
def IAllow : List SField :=
  [⟨"attributes", "zope.configuration.fields.Tokens", some "zope.configuration.fields.PythonIdentifier", false⟩,
   ⟨"interface", "zope.configuration.fields.Tokens", some "zope.configuration.fields.GlobalInterface", false⟩]

/-- metadirectives.py:187-203 -/
def IRequire : List SField :=
  [⟨"attributes", "zope.configuration.fields.Tokens", some "zope.configuration.fields.PythonIdentifier", false⟩,
   ⟨"permission", "zope.security.zcml.Permission", none, true⟩]

/-- zcml.py:60-66 -/
def ISecurityPolicyDirective : List SField :=
  [⟨"component", "zope.configuration.fields.GlobalObject", none, true⟩]

/-- zcml.py:77-93 -/
def IPermissionDirective : List SField :=
  [⟨"id", "zope.schema.Id", none, true⟩,
   ⟨"title", "zope.configuration.fields.MessageID", none, true⟩,
   ⟨"description", "zope.configuration.fields.MessageID", none, false⟩]

/-- zcml.py:105-116 -/
def IRedefinePermission : List SField :=
  [⟨"from_", "zope.security.zcml.Permission", none, true⟩,
   ⟨"to", "zope.security.zcml.Permission", none, true⟩]

/-- The schemas by their names. -/
def schemas : List (String × List SField) :=
  [("zope.security.metadirectives.IClassDirective", IClassDirective),
   ("zope.security.metadirectives.IImplementsSubdirective", IImplementsSubdirective),
   ("zope.security.metadirectives.IRequireSubdirective", IRequireSubdirective),
   ("zope.security.metadirectives.IAllowSubdirective", IAllowSubdirective),
   ("zope.security.metadirectives.IFactorySubdirective", IFactorySubdirective),
   ("zope.security.metadirectives.IModule", IModule),
   ("zope.security.metadirectives.IAllow", IAllow),
   ("zope.security.metadirectives.IRequire", IRequire),
   ("zope.security.zcml.ISecurityPolicyDirective", ISecurityPolicyDirective),
   ("zope.security.zcml.IPermissionDirective", IPermissionDirective),
   ("zope.security.zcml.IRedefinePermission", IRedefinePermission)]

end ZS.Src
