import Verif.Enums.Tables
/-
`xml_to_enum`, `enum_to_xml`, `str_to_package_role` (src/autosar/xml/enumeration.py).
-/
namespace Verif.Enums
open Verif.Py

/-- `DEFAULT_SCHEMA_VERSION` (base.py 5). -/
def defaultVersion : Nat := 51

/-- The two dictionary lookups of `xml_to_enum` (enumeration.py 1125-1126). -/
def rawEntry (tn text : String) : Except PyErr XEntry :=
  match dictGet xmlToEnumMap tn with
  | none => .error .keyError
  | some mapping =>
    match dictGet mapping text with
    | none => .error .keyError
    | some e => .ok e

/-- The type dispatch of `xml_to_enum` (enumeration.py 1127-1134). -/
def selectEntry (version : Nat) : XEntry → Except PyErr Member
  | .plain m => .ok m
  | .versioned m vs => if version ∈ vs then .ok m else .error .versionError

/-- `xml_to_enum(enum_type_name, xml_text, schema_version)` (enumeration.py 1121-1134). -/
def xmlToEnum (tn text : String) (version : Nat) : Except PyErr Member :=
  match rawEntry tn text with
  | .error e => .error e
  | .ok e => selectEntry version e

/-- The list lookup of `enum_to_xml` (enumeration.py 1533-1535). -/
def rawText (m : Member) : Except PyErr TEntry :=
  match dictGet enumToXmlMap m.cls with
  | none => .error .keyError
  | some texts =>
    match dictGet enumMembers m.cls with
    | none => .error .attributeError
    | some members =>
      match dictGet members m.name with
      | none => .error .attributeError
      | some value =>
        match texts[value]? with
        | none => .error .indexError
        | some t => .ok t

/-- The type dispatch of `enum_to_xml` (enumeration.py 1536-1542). -/
def selectText (version : Nat) : TEntry → Except PyErr String
  | .plain t => .ok t
  | .versioned t vs => if version ∈ vs then .ok t else .error .versionError

/-- `enum_to_xml(enum_item, schema_version)` (enumeration.py 1529-1542). -/
def enumToXml (m : Member) (version : Nat) : Except PyErr String :=
  match rawText m with
  | .error e => .error e
  | .ok t => selectText version t

/-- `str_to_package_role(name)` (enumeration.py 1571-1575). -/
def strToPackageRole (name : String) : Except PyErr String :=
  match dictGet strToPackageRoleMap name with
  | none => .error .keyError
  | some r => .ok r

/-- `m` is a member of an `Enum` class of the module. -/
def Member.exists? (m : Member) : Bool :=
  match dictGet enumMembers m.cls with
  | none => false
  | some l => dictHas l m.name

/-- The class has texts in `enum_to_xml_map`. -/
def hasXml (tn : String) : Bool := dictHas enumToXmlMap tn

/-! ### Checks over the complete tables -/

/-- Text and entry of one member agree, version sets included. -/
def agrees (m : Member) : Bool :=
  match rawText m with
  | .ok (.plain t) => rawEntry m.cls t = .ok (.plain m)
  | .ok (.versioned t vs) => rawEntry m.cls t = .ok (.versioned m vs)
  | .error _ => false

/-- All members of all classes with XML texts. -/
def allXmlMembers : List Member :=
  enumMembers.flatMap (fun row =>
    if hasXml row.1 then row.2.map (fun p => ⟨row.1, p.1⟩) else [])

theorem all_agree : allXmlMembers.all agrees = true := by decide +kernel

theorem mem_allXmlMembers {m : Member} (h1 : m.exists? = true) (h2 : hasXml m.cls = true) :
    m ∈ allXmlMembers := by
  unfold Member.exists? at h1
  cases hd : dictGet enumMembers m.cls with
  | none => rw [hd] at h1; simp at h1
  | some l =>
    rw [hd] at h1
    simp only [dictHas, Option.isSome_iff_exists] at h1
    obtain ⟨v, hv⟩ := h1
    have hrow := dictGet_mem _ _ _ hd
    have hmem := dictGet_mem _ _ _ hv
    unfold allXmlMembers
    rw [List.mem_flatMap]
    refine ⟨_, hrow, ?_⟩
    simp only [h2, if_true, List.mem_map]
    exact ⟨_, hmem, rfl⟩

theorem agrees_of_member {m : Member} (h1 : m.exists? = true) (h2 : hasXml m.cls = true) :
    agrees m = true := List.all_eq_true.1 all_agree m (mem_allXmlMembers h1 h2)

theorem rawText_exists {m : Member} {t : TEntry} (h : rawText m = .ok t) :
    m.exists? = true ∧ hasXml m.cls = true := by
  unfold rawText at h
  unfold Member.exists? hasXml dictHas
  cases h1 : dictGet enumToXmlMap m.cls with
  | none => rw [h1] at h; simp at h
  | some texts =>
    rw [h1] at h
    simp only at h
    cases h2 : dictGet enumMembers m.cls with
    | none => rw [h2] at h; simp at h
    | some ms =>
      rw [h2] at h
      simp only at h
      cases h3 : dictGet ms m.name with
      | none => rw [h3] at h; simp at h
      | some v => simp [h3]

/-- Everything a text is read as: the members of the class whose text it is. -/
def entryMember : XEntry → Member
  | .plain m => m
  | .versioned m _ => m

/-- Texts accepted on input although they are never written. -/
def inputAliases : List (String × String) :=
  [("CalibrationAxisCategory", "COM_AXIS"), ("CalibrationAxisCategory", "CURVE_AXIS"),
   ("CalibrationAxisCategory", "FIX_AXIS"), ("CalibrationAxisCategory", "RES_AXIS"),
   ("CalibrationAxisCategory", "STD_AXIS")]

/-- The reverse check: each readable text is the text of the member it is read as,
apart from the aliases. -/
def reverseAgrees (tn text : String) (e : XEntry) : Bool :=
  (tn, text) ∈ inputAliases ||
    ((entryMember e).cls = tn &&
      match e with
      | .plain m => rawText m = .ok (.plain text)
      | .versioned m vs => rawText m = .ok (.versioned text vs))

theorem all_reverse : (xmlToEnumMap.all fun row =>
    row.2.all fun p => reverseAgrees row.1 p.1 p.2) = true := by decide +kernel

theorem entries_same_class : (xmlToEnumMap.all fun row =>
    row.2.all fun p => decide ((entryMember p.2).cls = row.1) && (entryMember p.2).exists?) = true := by
  decide +kernel

end Verif.Enums
