import Verif.Codec.Roundtrip
/-
C23: data types survive XML.
-/
namespace Verif.Props.CodecTypes
open Verif.Py Verif.Num Verif.Codec Verif.Codec.Spec

/-- The data type classes and their parts, with the tag given to `write_str_elem` and the type name
given to `read_str_elem` (element.py 1580-2420, 3310-3330). -/
def forms : List (Cls × Option String × Option String) :=
  [(.SwBaseType, none, none), (.SwAddrMethod, none, none),
   (.ImplementationDataType, none, none), (.ImplementationDataTypeElement, none, none),
   (.ApplicationPrimitiveDataType, none, none), (.ApplicationArrayDataType, none, none),
   (.ApplicationArrayElement, none, some "ApplicationArrayElement"),
   (.ApplicationRecordDataType, none, none), (.ApplicationRecordElement, none, none),
   (.DataTypeMap, none, none), (.ModeRequestTypeMap, none, none),
   (.DataTypeMappingSet, none, none), (.SwDataDefPropsConditional, none, none),
   (.SwPointerTargetProps, none, none), (.SwTextProps, none, none),
   (.SwBitRepresentation, none, none), (.SymbolProps, some "SYMBOL-PROPS", none)]

/-- Lost: the UUIDs of implementation and application data types and of their elements. -/
def lost : Cls → List String
  | .ImplementationDataType | .ImplementationDataTypeElement | .ApplicationPrimitiveDataType
  | .ApplicationArrayDataType | .ApplicationArrayElement | .ApplicationRecordDataType
  | .ApplicationRecordElement => ["uuid"]
  | _ => []

/-- Only the first element is left: the annotations of data definition properties. -/
def first : Cls → List String
  | .SwDataDefPropsConditional => ["annotations"]
  | _ => []

/-- The classes objects of these classes consist of. -/
def parts : List Cls :=
  forms.map (·.1) ++
  [.MultilanguageLongName, .LanguageLongName, .MultiLanguageOverviewParagraph,
   .LanguageOverviewParagraph, .TechnicalTerm, .SwDataDefProps, .Annotation, .DocumentationBlock,
   .MultiLanguageParagraph, .MultiLanguageVerbatim, .LanguageParagraph, .LanguageVerbatim]

/-- C23: base types, implementation data types with sub-elements nested to any depth and pointer
targets, application data types and data type mappings that are written and read back are the same,
except for the UUIDs and annotations named above. -/
theorem C23_survives_partial : ∀ x ∈ forms, ∀ v, WellFormed x.1 v →
    SurvivesBut lost first x.2.1 x.2.2 v :=
  all_survive_but (S := parts) (by decide +kernel) (by decide +kernel)

/-- A structure with an array of pointers in it. -/
def sample : Val Cls :=
  .obj .ImplementationDataType
    [("name", .str "Struct_T"),
     ("desc", .obj .MultiLanguageOverviewParagraph
       [("elements", .list [.obj .LanguageOverviewParagraph
         [("language", .enum ⟨"Language", "EN"⟩), ("parts", .list [.str "A structure"])]])]),
     ("category", .str "STRUCTURE"),
     ("uuid", .str "8f1c"),
     ("sub_elements", .list
       [.obj .ImplementationDataTypeElement
          [("name", .str "Elem1"), ("category", .str "ARRAY"), ("array_size", .num (.int 4)),
           ("array_size_semantics", .enum ⟨"ArraySizeSemantics", "FIXED_SIZE"⟩),
           ("sub_elements", .list
             [.obj .ImplementationDataTypeElement
                [("name", .str "Ptr"), ("category", .str "DATA_REFERENCE"),
                 ("sw_data_def_props", .obj .SwDataDefProps
                   [("variants", .list [.obj .SwDataDefPropsConditional
                     [("ptr_target_props", .obj .SwPointerTargetProps
                       [("target_category", .str "TYPE_REFERENCE"),
                        ("sw_data_def_props", .obj .SwDataDefProps
                          [("variants", .list [.obj .SwDataDefPropsConditional
                            [("impl_data_type_ref", .ref ⟨"ImplementationDataTypeRef", "/T/u8",
                               "IMPLEMENTATION_DATA_TYPE"⟩)]])])])]])]),
                 ("is_optional", .bool true)]])],
        .obj .ImplementationDataTypeElement
          [("name", .str "Elem2"), ("category", .str "VALUE"),
           ("sw_data_def_props", .obj .SwDataDefProps
             [("variants", .list [.obj .SwDataDefPropsConditional
               [("annotations", .list [.obj .Annotation [("origin", .str "a")],
                                       .obj .Annotation [("origin", .str "b")]]),
                ("base_type_ref", .ref ⟨"SwBaseTypeRef", "/B/uint8", "SW_BASE_TYPE"⟩),
                ("compu_method_ref", .ref ⟨"CompuMethodRef", "/C/x", "COMPU_METHOD"⟩)]])])]]),
     ("symbol_props", .obj .SymbolProps [("name", .str "Struct_T"), ("symbol", .str "Struct")]),
     ("type_emitter", .str "RTE")]

example : WellFormed .ImplementationDataType sample := by decide +kernel

/-- What does not survive: the UUID of an implementation data type and the second annotation; the
UUID of a base type does survive. -/
theorem C23_findings :
    (∃ text, writeStrElem none (.obj .ImplementationDataType
        [("name", .str "T"), ("uuid", .str "8f1c")]) = .ok text ∧
      readStrElem none text = .ok (.obj .ImplementationDataType [("name", .str "T")])) ∧
    (∃ text, writeStrElem none (.obj .SwDataDefPropsConditional
        [("annotations", .list [.obj .Annotation [("origin", .str "a")],
                                .obj .Annotation [("origin", .str "b")]])]) = .ok text ∧
      readStrElem none text = .ok (.obj .SwDataDefPropsConditional
        [("annotations", .list [.obj .Annotation [("origin", .str "a")]])])) ∧
    (∃ text, writeStrElem none (.obj .SwBaseType
        [("name", .str "T"), ("uuid", .str "8f1c")]) = .ok text ∧
      readStrElem none text = .ok (.obj .SwBaseType [("name", .str "T"), ("uuid", .str "8f1c")])) :=
  by
  refine ⟨elem_rt (by decide +kernel : topOk .ImplementationDataType none none = true) (by decide +kernel),
    elem_rt (by decide +kernel : topOk .SwDataDefPropsConditional none none = true) (by decide +kernel),
    elem_rt (by decide +kernel : topOk .SwBaseType none none = true) (by decide +kernel)⟩

end Verif.Props.CodecTypes
