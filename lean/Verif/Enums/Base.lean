import Verif.Py
/-
Entry types of the enumeration tables.
-/
namespace Verif.Enums

/-- An enumeration member: class name and member name. -/
structure Member where
  cls : String
  name : String
  deriving DecidableEq, Repr

/-- Entry of `xml_to_enum_map`: an Enum member or a `VersionedEnumValue`
(enumeration.py 698-705). -/
inductive XEntry where
  | plain (m : Member)
  | versioned (m : Member) (versions : List Nat)
  deriving DecidableEq, Repr

/-- Entry of `enum_to_xml_map`: a string or a `VersionedTextValue`
(enumeration.py 708-715). -/
inductive TEntry where
  | plain (t : String)
  | versioned (t : String) (versions : List Nat)
  deriving DecidableEq, Repr

end Verif.Enums
