import Verif.Model.Py

/-!
# Schemas and ZCML files as they are written

The fields of the schemas of metadirectives.py and zcml.py, and the elements of ZCML files.  `Source/Schemas.lean` and
`Source/Files.lean` hold those of the package; tools/zcmlsource.py writes them from the text.
-/

namespace ZS

/-- A field of a schema: its name, its class, the class of its `value_type`, and whether it is required. -/
structure SField where
  name : Name
  kind : String
  item : Option String
  required : Bool
  deriving DecidableEq, Repr

/-- An element: its namespace, name, attributes and children. -/
inductive Xml where
  | el (ns name : String) (attrs : List (String × String)) (children : List Xml)

end ZS
