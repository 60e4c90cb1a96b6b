import Verif.Codec.Lang
import Verif.Codec.Names
/-
Constructor arguments and attributes of the element classes (src/autosar/xml/element.py); all
line numbers are of src/autosar/xml/element.py.

Simplifications: `admin_data` is left out (the constructor of `Identifiable`, 226-282, drops it);
an interval limit and its interval type are one attribute; where a constructor accepts a shorthand
(a string for a long name, a single object for a list, a reference for the object holding it) only
the object it is turned into is listed, because reader and writer only ever see that; an integer as
`display_format` (which `_assign_int_or_str_pattern`, base.py 73-86, lets pass), strings as interval
limits and `default_pattern_format` are left out.
-/
namespace Verif.Codec.Schema

/-- Optional attribute. -/
def opt (name : String) (alts : List (STy Cls)) : Field Cls := ⟨name, name, .one, alts, false⟩

/-- Required attribute. -/
def req (name : String) (alts : List (STy Cls)) : Field Cls := ⟨name, name, .one, alts, true⟩

/-- List of values. -/
def list (name : String) (alts : List (STy Cls)) : Field Cls := ⟨name, name, .many none, alts, false⟩

/-- The value specification classes. -/
def valueSpecs : List (STy Cls) :=
  [.cls .TextValueSpecification, .cls .NumericalValueSpecification,
   .cls .NotAvailableValueSpecification, .cls .ArrayValueSpecification,
   .cls .RecordValueSpecification, .cls .ApplicationValueSpecification, .cls .ConstantReference]

/-- `Referrable`, `MultiLanguageReferrable`, `Identifiable`, element.py 178-280. -/
def identifiable : List (Field Cls) :=
  [req "name" [.str],
   opt "long_name" [.cls .MultilanguageLongName],
   opt "desc" [.cls .MultiLanguageOverviewParagraph],
   opt "category" [.str],
   opt "uuid" [.str]]

/-- `DataFilter`, element.py 346-375.  Simplification: the constructor lets negative numbers pass as
`offset` and `period` (373-374); the reader does not (reader.py 1508-1513). -/
def DataFilter : List (Field Cls) :=
  [opt "data_filter_type" [.enum "DataFilterType"],
   opt "min_val" [.int],
   opt "max_val" [.int],
   opt "mask" [.int],
   opt "offset" [.nat],
   opt "period" [.nat],
   opt "x" [.int]]

/-- `AutosarEngineeringObject`, element.py 393-399. -/
def AutosarEngineeringObject : List (Field Cls) :=
  [opt "label" [.str],
   opt "category" [.str]]

/-- `Code`, element.py 402-429. -/
def Code : List (Field Cls) :=
  identifiable ++
  [list "artifact_descriptors" [.cls .AutosarEngineeringObject]]

/-- `Break`, element.py 477-483. -/
def Break : List (Field Cls) :=
  []

/-- `EmphasisText`, element.py 486-509. -/
def EmphasisText : List (Field Cls) :=
  [req "elements" [.str],
   opt "color" [.str],
   opt "font" [.enum "EmphasisFont"],
   opt "type" [.enum "EmphasisType"]]

/-- `IndexEntry`, element.py 512-523. -/
def IndexEntry : List (Field Cls) :=
  [req "text" [.str]]

/-- `TechnicalTerm`, element.py 526-541. -/
def TechnicalTerm : List (Field Cls) :=
  [req "text" [.str],
   opt "tex_render" [.str],
   opt "type" [.str]]

/-- `Subscript`, element.py 544-554. -/
def Subscript : List (Field Cls) :=
  [req "text" [.str]]

/-- `Superscript`, element.py 557-572. -/
def Superscript : List (Field Cls) :=
  [req "text" [.str]]

/-- `LanguageLongName`, element.py 585-601, 627-651.  Line 598 lists `Subscript` twice and not
`Superscript`. -/
def LanguageLongName : List (Field Cls) :=
  [req "language" [.enum "Language"],
   ⟨"parts", "parts", .mixed, [.str, .cls .EmphasisText, .cls .IndexEntry, .cls .Subscript,
      .cls .TechnicalTerm], false⟩]

/-- `MultilanguageLongName`, element.py 654-679. -/
def MultilanguageLongName : List (Field Cls) :=
  [list "elements" [.cls .LanguageLongName]]

/-- `LanguageOverviewParagraph`, element.py 604-624, 682-706.  Line 621 lists `Subscript` twice and
neither `Superscript` nor `Break`. -/
def LanguageOverviewParagraph : List (Field Cls) :=
  [req "language" [.enum "Language"],
   ⟨"parts", "parts", .mixed, [.str, .cls .EmphasisText, .cls .IndexEntry, .cls .Subscript,
      .cls .TechnicalTerm], false⟩]

/-- `MultiLanguageOverviewParagraph`, element.py 709-743. -/
def MultiLanguageOverviewParagraph : List (Field Cls) :=
  [⟨"paragraph", "elements", (.many none), [.cls .LanguageOverviewParagraph], false⟩]

/-- `LanguageParagraph`, element.py 785-809, 812-837.  Line 806 lists `Subscript` twice and not
`Superscript`. -/
def LanguageParagraph : List (Field Cls) :=
  [req "language" [.enum "Language"],
   ⟨"parts", "parts", .mixed, [.str, .cls .Break, .cls .EmphasisText, .cls .IndexEntry, .cls .Subscript,
      .cls .TechnicalTerm], false⟩]

/-- `MultiLanguageParagraph`, element.py 840-869. -/
def MultiLanguageParagraph : List (Field Cls) :=
  [opt "semantic_information" [.str],
   opt "view" [.str],
   opt "page_break" [.enum "PageBreak"],
   opt "keep_with_previous" [.enum "KeepWithPrevious"],
   ⟨"paragraph", "elements", (.many none), [.cls .LanguageParagraph], false⟩,
   opt "help_entry" [.str]]

/-- `LanguageVerbatim`, element.py 898-911. -/
def LanguageVerbatim : List (Field Cls) :=
  [req "language" [.enum "Language"],
   ⟨"parts", "parts", .mixed, [.str, .cls .Break, .cls .EmphasisText, .cls .TechnicalTerm], false⟩]

/-- `MultiLanguageVerbatim`, element.py 914-949. -/
def MultiLanguageVerbatim : List (Field Cls) :=
  [opt "semantic_information" [.str],
   opt "view" [.str],
   opt "page_break" [.enum "PageBreak"],
   opt "keep_with_previous" [.enum "KeepWithPrevious"],
   ⟨"element", "elements", (.many none), [.cls .LanguageVerbatim], false⟩,
   opt "allow_break" [.str],
   opt "float" [.enum "Float"],
   opt "page_wide" [.enum "PageWide"],
   opt "help_entry" [.str]]

/-- `SingleLanguageUnitNames`, element.py 971-999. -/
def SingleLanguageUnitNames : List (Field Cls) :=
  [⟨"parts", "parts", .mixed, [.str, .cls .Subscript, .cls .Superscript], false⟩]

/-- `DocumentationBlock`, element.py 1002-1027. -/
def DocumentationBlock : List (Field Cls) :=
  [⟨"element", "elements", (.many none), [.cls .MultiLanguageParagraph, .cls .MultiLanguageVerbatim], false⟩]

/-- `Annotation`, element.py 1045-1055. -/
def Annotation : List (Field Cls) :=
  [opt "label" [.cls .MultilanguageLongName],
   opt "origin" [.str],
   opt "text" [.cls .DocumentationBlock]]

/-- `CompuRational`, element.py 1091-1111. -/
def CompuRational : List (Field Cls) :=
  [⟨"numerator", "numerator", (.many none), [.int, .numFloat], true⟩,
   list "denominator" [.int, .numFloat]]

/-- `CompuConst`, element.py 1114-1124. -/
def CompuConst : List (Field Cls) :=
  [req "value" [.int, .numFloat, .str]]

/-- `CompuScale`, element.py 1127-1173. -/
def CompuScale : List (Field Cls) :=
  [opt "content" [.cls .CompuConst, .cls .CompuRational],
   opt "lower_limit" [.limit],
   opt "upper_limit" [.limit],
   opt "label" [.str],
   opt "symbol" [.str],
   opt "desc" [.cls .MultiLanguageOverviewParagraph],
   opt "mask" [.int],
   opt "inverse_value" [.cls .CompuConst]]

/-- `Computation`, element.py 1176-1256. -/
def Computation : List (Field Cls) :=
  [list "compu_scales" [.cls .CompuScale],
   opt "default_value" [.cls .CompuConst]]

/-- `CompuMethod`, element.py 1259-1283. -/
def CompuMethod : List (Field Cls) :=
  identifiable ++
  [opt "int_to_phys" [.cls .Computation],
   opt "phys_to_int" [.cls .Computation],
   opt "unit_ref" [.ref "UnitRef"],
   opt "display_format" [.str]]

/-- `ScaleConstraint`, element.py 1327-1344. -/
def ScaleConstraint : List (Field Cls) :=
  [opt "lower_limit" [.limit],
   opt "upper_limit" [.limit],
   opt "label" [.str],
   opt "desc" [.cls .MultiLanguageOverviewParagraph],
   opt "validity" [.enum "ScaleConstraintValidity"]]

/-- `InternalConstraint`, element.py 1368-1390. -/
def InternalConstraint : List (Field Cls) :=
  [opt "lower_limit" [.limit],
   opt "upper_limit" [.limit],
   ⟨"scale_constr", "scale_constrs", (.many none), [.cls .ScaleConstraint], false⟩,
   opt "max_gradient" [.int, .numFloat],
   opt "max_diff" [.int, .numFloat],
   opt "monotony" [.enum "Monotony"]]

/-- `PhysicalConstraint`, element.py 1393-1417. -/
def PhysicalConstraint : List (Field Cls) :=
  [opt "lower_limit" [.limit],
   opt "upper_limit" [.limit],
   ⟨"scale_constr", "scale_constrs", (.many none), [.cls .ScaleConstraint], false⟩,
   opt "max_gradient" [.int, .numFloat],
   opt "max_diff" [.int, .numFloat],
   opt "monotony" [.enum "Monotony"],
   opt "unit_ref" [.ref "UnitRef"]]

/-- `DataConstraintRule`, element.py 1420-1432. -/
def DataConstraintRule : List (Field Cls) :=
  [opt "internal" [.cls .InternalConstraint],
   opt "physical" [.cls .PhysicalConstraint],
   opt "level" [.int]]

/-- `DataConstraint`, element.py 1435-1513. -/
def DataConstraint : List (Field Cls) :=
  identifiable ++
  [list "rules" [.cls .DataConstraintRule]]

/-- `Unit`, element.py 1518-1558. -/
def Unit : List (Field Cls) :=
  identifiable ++
  [opt "display_name" [.cls .SingleLanguageUnitNames],
   opt "factor" [.float],
   opt "offset" [.float],
   opt "physical_dimension_ref" [.ref "PhysicalDimensionRef"]]

/-- `SwBaseType`, element.py 1580-1609. -/
def SwBaseType : List (Field Cls) :=
  identifiable ++
  [opt "size" [.nat],
   opt "max_size" [.nat],
   opt "encoding" [.str],
   opt "alignment" [.nat],
   opt "byte_order" [.enum "ByteOrder"],
   opt "native_declaration" [.str]]

/-- `SwBitRepresentation`, element.py 1612-1625. -/
def SwBitRepresentation : List (Field Cls) :=
  [opt "position" [.int],
   opt "num_bits" [.int]]

/-- `SwTextProps`, element.py 1628-1647. -/
def SwTextProps : List (Field Cls) :=
  [opt "array_size_semantics" [.enum "ArraySizeSemantics"],
   opt "max_text_size" [.int],
   opt "base_type_ref" [.ref "SwBaseTypeRef"],
   opt "fill_char" [.int]]

/-- `SwPointerTargetProps`, element.py 1650-1672. -/
def SwPointerTargetProps : List (Field Cls) :=
  [opt "target_category" [.str],
   opt "sw_data_def_props" [.cls .SwDataDefProps],
   opt "function_ptr_signature_ref" [.ref "FunctionPtrSignatureRef"]]

/-- `SwDataDefPropsConditional`, element.py 1675-1791. -/
def SwDataDefPropsConditional : List (Field Cls) :=
  [opt "display_presentation" [.enum "DisplayPresentation"],
   opt "step_size" [.float],
   list "annotations" [.cls .Annotation],
   opt "sw_addr_method_ref" [.ref "SwAddrMethodRef"],
   opt "base_type_ref" [.ref "SwBaseTypeRef"],
   opt "compu_method_ref" [.ref "CompuMethodRef"],
   opt "data_constraint_ref" [.ref "DataConstraintRef"],
   opt "impl_data_type_ref" [.ref "ImplementationDataTypeRef"],
   opt "unit_ref" [.ref "UnitRef"],
   opt "alignment" [.int, .alignment],
   opt "bit_representation" [.cls .SwBitRepresentation],
   opt "calibration_access" [.enum "SwCalibrationAccess"],
   opt "text_props" [.cls .SwTextProps],
   opt "display_format" [.format],
   opt "impl_policy" [.enum "SwImplPolicy"],
   opt "additional_native_type_qualifier" [.str],
   opt "intended_resolution" [.int, .numFloat],
   opt "interpolation_method" [.str],
   opt "is_virtual" [.bool],
   opt "ptr_target_props" [.cls .SwPointerTargetProps]]

/-- `SwDataDefProps`, element.py 1794-1838. -/
def SwDataDefProps : List (Field Cls) :=
  [list "variants" [.cls .SwDataDefPropsConditional]]

/-- `SymbolProps`, element.py 1874-1880. -/
def SymbolProps : List (Field Cls) :=
  [req "name" [.str],
   opt "symbol" [.str]]

/-- `ImplementationDataTypeElement`, element.py 1883-1941. -/
def ImplementationDataTypeElement : List (Field Cls) :=
  identifiable ++
  [opt "sw_data_def_props" [.cls .SwDataDefProps],
   opt "array_size" [.nat],
   opt "array_impl_policy" [.enum "ArrayImplPolicy"],
   opt "array_size_handling" [.enum "ArraySizeHandling"],
   opt "array_size_semantics" [.enum "ArraySizeSemantics"],
   list "sub_elements" [.cls .ImplementationDataTypeElement],
   opt "is_optional" [.bool]]

/-- `ImplementationDataType`, element.py 1944-2001. -/
def ImplementationDataType : List (Field Cls) :=
  identifiable ++
  [opt "sw_data_def_props" [.cls .SwDataDefProps],
   opt "dynamic_array_size_profile" [.str],
   opt "is_struct_with_optional_element" [.bool],
   list "sub_elements" [.cls .ImplementationDataTypeElement],
   opt "symbol_props" [.cls .SymbolProps],
   opt "type_emitter" [.str]]

/-- `VariableDataPrototype`, element.py 2039-2069. -/
def VariableDataPrototype : List (Field Cls) :=
  identifiable ++
  [opt "sw_data_def_props" [.cls .SwDataDefProps],
   opt "type_ref" [.ref "AutosarDataTypeRef"],
   opt "init_value" valueSpecs]

/-- `ParameterDataPrototype`, element.py 2072-2093. -/
def ParameterDataPrototype : List (Field Cls) :=
  identifiable ++
  [opt "sw_data_def_props" [.cls .SwDataDefProps],
   opt "type_ref" [.ref "AutosarDataTypeRef"],
   opt "init_value" valueSpecs]

/-- `ArgumentDataPrototype`, element.py 2096-2121. -/
def ArgumentDataPrototype : List (Field Cls) :=
  identifiable ++
  [opt "sw_data_def_props" [.cls .SwDataDefProps],
   opt "type_ref" [.ref "AutosarDataTypeRef"],
   opt "direction" [.enum "ArgumentDirection"],
   opt "server_arg_impl_policy" [.enum "ServerArgImplPolicy"]]

/-- `ApplicationPrimitiveDataType`, element.py 2141-2160. -/
def ApplicationPrimitiveDataType : List (Field Cls) :=
  identifiable ++
  [opt "sw_data_def_props" [.cls .SwDataDefProps]]

/-- `ApplicationArrayElement`, element.py 2177-2208. -/
def ApplicationArrayElement : List (Field Cls) :=
  identifiable ++
  [opt "sw_data_def_props" [.cls .SwDataDefProps],
   opt "type_ref" [.ref "ApplicationDataTypeRef"],
   opt "max_number_of_elements" [.nat],
   opt "array_size_handling" [.enum "ArraySizeHandling"],
   opt "array_size_semantics" [.enum "ArraySizeSemantics"],
   opt "index_data_type_ref" [.ref "IndexDataTypeRef"]]

/-- `ApplicationArrayDataType`, element.py 2211-2236. -/
def ApplicationArrayDataType : List (Field Cls) :=
  identifiable ++
  [opt "sw_data_def_props" [.cls .SwDataDefProps],
   opt "dynamic_array_size_profile" [.str],
   opt "element" [.cls .ApplicationArrayElement]]

/-- `ApplicationRecordElement`, element.py 2239-2261. -/
def ApplicationRecordElement : List (Field Cls) :=
  identifiable ++
  [opt "sw_data_def_props" [.cls .SwDataDefProps],
   opt "type_ref" [.ref "ApplicationDataTypeRef"],
   opt "is_optional" [.bool]]

/-- `ApplicationRecordDataType`, element.py 2264-2306. -/
def ApplicationRecordDataType : List (Field Cls) :=
  identifiable ++
  [opt "sw_data_def_props" [.cls .SwDataDefProps],
   list "elements" [.cls .ApplicationRecordElement]]

/-- `DataTypeMap`, element.py 2309-2320. -/
def DataTypeMap : List (Field Cls) :=
  [opt "appl_data_type_ref" [.ref "ApplicationDataTypeRef"],
   opt "impl_data_type_ref" [.ref "ImplementationDataTypeRef"]]

/-- `DataTypeMappingSet`, element.py 2323-2364. -/
def DataTypeMappingSet : List (Field Cls) :=
  identifiable ++
  [list "data_type_maps" [.cls .DataTypeMap]]

/-- `ValueList`, element.py 2367-2389. -/
def ValueList : List (Field Cls) :=
  [list "values" [.int, .numFloat, .radix]]

/-- `Package` without elements and sub-packages, element.py 2834-2843. -/
def Package : List (Field Cls) :=
  identifiable

/-- `SwAddrMethod`, element.py 2395-2414. -/
def SwAddrMethod : List (Field Cls) :=
  identifiable

/-- `SwValues`, element.py 2422-2449. -/
def SwValues : List (Field Cls) :=
  [list "values" [.str, .int, .numFloat, .radix, .cls .ValueGroup]]

/-- `ValueGroup`, element.py 2452-2469. -/
def ValueGroup : List (Field Cls) :=
  [list "values" [.str, .int, .numFloat, .radix, .cls .ValueGroup],
   opt "label" [.cls .MultilanguageLongName]]

/-- `SwAxisCont`, element.py 2472-2501. -/
def SwAxisCont : List (Field Cls) :=
  [opt "category" [.enum "CalibrationAxisCategory"],
   opt "unit_ref" [.ref "UnitRef"],
   opt "unit_display_name" [.cls .SingleLanguageUnitNames],
   opt "sw_axis_index" [.int, .strNotInt],
   opt "sw_array_size" [.cls .ValueList],
   opt "sw_values_phys" [.cls .SwValues]]

/-- `SwValueCont`, element.py 2504-2522. -/
def SwValueCont : List (Field Cls) :=
  [opt "unit_ref" [.ref "UnitRef"],
   opt "unit_display_name" [.cls .SingleLanguageUnitNames],
   opt "sw_array_size" [.cls .ValueList],
   opt "sw_values_phys" [.cls .SwValues]]

/-- `TextValueSpecification`, element.py 2641-2649. -/
def TextValueSpecification : List (Field Cls) :=
  [opt "label" [.str],
   opt "value" [.str]]

/-- `NumericalValueSpecification`, element.py 2652-2660. -/
def NumericalValueSpecification : List (Field Cls) :=
  [opt "label" [.str],
   opt "value" [.int, .numFloat]]

/-- `NotAvailableValueSpecification`, element.py 2663-2678. -/
def NotAvailableValueSpecification : List (Field Cls) :=
  [opt "label" [.str],
   opt "default_pattern" [.nat]]

/-- `ArrayValueSpecification`, element.py 2681-2706. -/
def ArrayValueSpecification : List (Field Cls) :=
  [opt "label" [.str],
   list "elements" valueSpecs]

/-- `RecordValueSpecification`, element.py 2709-2734. -/
def RecordValueSpecification : List (Field Cls) :=
  [opt "label" [.str],
   list "fields" valueSpecs]

/-- `ApplicationValueSpecification`, element.py 2737-2767. -/
def ApplicationValueSpecification : List (Field Cls) :=
  [opt "label" [.str],
   opt "category" [.str],
   list "sw_axis_conts" [.cls .SwAxisCont],
   opt "sw_value_cont" [.cls .SwValueCont]]

/-- `ConstantSpecification`, element.py 2770-2805. -/
def ConstantSpecification : List (Field Cls) :=
  identifiable ++
  [opt "value" valueSpecs]

/-- `ConstantReference`, element.py 2808-2828. -/
def ConstantReference : List (Field Cls) :=
  [opt "label" [.str],
   opt "constant_ref" [.ref "ConstantRef"]]

/-- `ModeDeclaration`, element.py 3110-3131. -/
def ModeDeclaration : List (Field Cls) :=
  identifiable ++
  [opt "value" [.nat]]

/-- `ModeErrorBehavior`, element.py 3134-3147. -/
def ModeErrorBehavior : List (Field Cls) :=
  [opt "default_mode_ref" [.ref "ModeDeclarationRef"],
   opt "error_reaction_policy" [.enum "ModeErrorReactionPolicy"]]

/-- `ModeTransition`, element.py 3150-3165. -/
def ModeTransition : List (Field Cls) :=
  identifiable ++
  [opt "entered_mode_ref" [.ref "ModeDeclarationRef"],
   opt "exited_mode_ref" [.ref "ModeDeclarationRef"]]

/-- `ModeDeclarationGroup`, element.py 3171-3280. -/
def ModeDeclarationGroup : List (Field Cls) :=
  identifiable ++
  [list "mode_declarations" [.cls .ModeDeclaration],
   opt "initial_mode_ref" [.ref "ModeDeclarationRef"],
   opt "mode_manager_error_behavior" [.cls .ModeErrorBehavior],
   list "mode_transitions" [.cls .ModeTransition],
   opt "mode_user_error_behavior" [.cls .ModeErrorBehavior],
   opt "on_transition_value" [.nat]]

/-- `ModeDeclarationGroupPrototype`, element.py 3283-3307. -/
def ModeDeclarationGroupPrototype : List (Field Cls) :=
  identifiable ++
  [opt "type_ref" [.ref "ModeDeclarationGroupRef"],
   opt "calibration_access" [.enum "SwCalibrationAccess"]]

/-- `ModeRequestTypeMap`, element.py 3310-3323. -/
def ModeRequestTypeMap : List (Field Cls) :=
  [opt "implementation_data_type" [.ref "ImplementationDataTypeRef"],
   opt "mode_group" [.ref "ModeDeclarationGroupRef"]]

/-- `InvalidationPolicy`, element.py 3355-3367. -/
def InvalidationPolicy : List (Field Cls) :=
  [opt "data_element_ref" [.ref "VariableDataPrototypeRef"],
   opt "handle_invalid" [.enum "HandleInvalid"]]

/-- `SenderReceiverInterface`, element.py 3370-3466. -/
def SenderReceiverInterface : List (Field Cls) :=
  identifiable ++
  [opt "is_service" [.bool],
   opt "service_kind" [.member "ServiceKind"],
   list "data_elements" [.cls .VariableDataPrototype],
   list "invalidation_policies" [.cls .InvalidationPolicy]]

/-- `NvDataInterface`, element.py 3469-3523. -/
def NvDataInterface : List (Field Cls) :=
  identifiable ++
  [opt "is_service" [.bool],
   opt "service_kind" [.member "ServiceKind"],
   list "data_elements" [.cls .VariableDataPrototype]]

/-- `ParameterInterface`, element.py 3526-3580. -/
def ParameterInterface : List (Field Cls) :=
  identifiable ++
  [opt "is_service" [.bool],
   opt "service_kind" [.member "ServiceKind"],
   list "parameters" [.cls .ParameterDataPrototype]]

/-- `ApplicationError`, element.py 3583-3605. -/
def ApplicationError : List (Field Cls) :=
  identifiable ++
  [opt "error_code" [.int]]

/-- `ClientServerOperation`, element.py 3611-3748. -/
def ClientServerOperation : List (Field Cls) :=
  identifiable ++
  [list "arguments" [.cls .ArgumentDataPrototype],
   opt "diag_arg_integrity" [.bool],
   opt "fire_and_forget" [.bool],
   list "possible_error_refs" [.ref "ApplicationErrorRef"]]

/-- `ClientServerInterface`, element.py 3751-3846. -/
def ClientServerInterface : List (Field Cls) :=
  identifiable ++
  [opt "is_service" [.bool],
   opt "service_kind" [.member "ServiceKind"],
   list "operations" [.cls .ClientServerOperation],
   list "possible_errors" [.cls .ApplicationError]]

/-- `ModeSwitchInterface`, element.py 3849-3890. -/
def ModeSwitchInterface : List (Field Cls) :=
  identifiable ++
  [opt "is_service" [.bool],
   opt "service_kind" [.member "ServiceKind"],
   opt "mode_group" [.cls .ModeDeclarationGroupPrototype]]

/-- `E2EProfileCompatibilityProps`, element.py 3895-3917. -/
def E2EProfileCompatibilityProps : List (Field Cls) :=
  identifiable ++
  [opt "transit_to_invalid_extended" [.bool]]

/-- `EndToEndTransformationComSpecProps`, element.py 3920-3981. -/
def EndToEndTransformationComSpecProps : List (Field Cls) :=
  [opt "desc" [.cls .MultiLanguageOverviewParagraph],
   opt "category" [.str],
   opt "introduction" [.cls .DocumentationBlock],
   opt "clear_from_valid_to_invalid" [.bool],
   opt "disable_e2e_check" [.bool],
   opt "disable_e2e_state_machine" [.bool],
   opt "e2e_profile_compatibility_props_ref" [.ref "E2EProfileCompatibilityPropsRef"],
   opt "max_delta_counter" [.nat],
   opt "max_error_state_init" [.nat],
   opt "max_error_state_invalid" [.nat],
   opt "max_error_state_valid" [.nat],
   opt "max_no_new_repeated_data" [.nat],
   opt "min_ok_state_init" [.nat],
   opt "min_ok_state_invalid" [.nat],
   opt "min_ok_state_valid" [.nat],
   opt "sync_counter_init" [.nat],
   opt "window_size" [.nat],
   opt "window_size_init" [.nat],
   opt "window_size_invalid" [.nat],
   opt "window_size_valid" [.nat]]

/-- `ModeSwitchedAckRequest`, element.py 3987-3996. -/
def ModeSwitchedAckRequest : List (Field Cls) :=
  [opt "timeout" [.castFloat]]

/-- `TransmissionAcknowledgementRequest`, element.py 3999-4009. -/
def TransmissionAcknowledgementRequest : List (Field Cls) :=
  [opt "timeout" [.castFloat]]

/-- `TransmissionComSpecProps`, element.py 4012-4031. -/
def TransmissionComSpecProps : List (Field Cls) :=
  [opt "data_update_period" [.castFloat],
   opt "minimum_send_interval" [.castFloat],
   opt "transmission_mode" [.enum "TransmissionMode"]]

/-- `ModeSwitchSenderComSpec`, element.py 4186-4213. -/
def ModeSwitchSenderComSpec : List (Field Cls) :=
  [opt "mode_group_ref" [.ref "ModeDeclarationGroupPrototypeRef"],
   opt "enhanced_mode_api" [.bool],
   opt "mode_switched_ack" [.cls .ModeSwitchedAckRequest],
   opt "queue_length" [.nat]]

/-- `QueuedSenderComSpec`, element.py 4216-4222. -/
def QueuedSenderComSpec : List (Field Cls) :=
  [opt "data_element_ref" [.ref "AutosarDataPrototypeRef"],
   opt "handle_out_of_range" [.enum "HandleOutOfRange"],
   opt "network_representation" [.cls .SwDataDefProps],
   opt "transmission_acknowledge" [.cls .TransmissionAcknowledgementRequest],
   opt "tranmsission_props" [.cls .TransmissionComSpecProps],
   opt "uses_end_to_end_protection" [.bool]]

/-- `NonqueuedSenderComSpec`, element.py 4225-4239. -/
def NonqueuedSenderComSpec : List (Field Cls) :=
  [opt "data_element_ref" [.ref "AutosarDataPrototypeRef"],
   opt "handle_out_of_range" [.enum "HandleOutOfRange"],
   opt "network_representation" [.cls .SwDataDefProps],
   opt "transmission_acknowledge" [.cls .TransmissionAcknowledgementRequest],
   opt "tranmsission_props" [.cls .TransmissionComSpecProps],
   opt "uses_end_to_end_protection" [.bool],
   opt "init_value" valueSpecs,
   opt "data_filter" [.cls .DataFilter]]

/-- `NvProvideComSpec`, element.py 4242-4259. -/
def NvProvideComSpec : List (Field Cls) :=
  [opt "variable_ref" [.ref "VariableDataPrototypeRef"],
   opt "ram_block_init_value" valueSpecs,
   opt "rom_block_init_value" valueSpecs]

/-- `ParameterProvideComSpec`, element.py 4262-4276. -/
def ParameterProvideComSpec : List (Field Cls) :=
  [opt "parameter_ref" [.ref "ParameterDataPrototypeRef"],
   opt "init_value" valueSpecs]

/-- `ServerComSpec`, element.py 4283-4325. -/
def ServerComSpec : List (Field Cls) :=
  [opt "operation_ref" [.ref "ClientServerOperationRef"],
   opt "queue_length" [.nat],
   list "transformation_com_spec_props" [.cls .EndToEndTransformationComSpecProps]]

/-- `ReceptionComSpecProps`, element.py 4328-4342. -/
def ReceptionComSpecProps : List (Field Cls) :=
  [opt "data_update_period" [.castFloat],
   opt "timeout" [.castFloat]]

/-- `QueuedReceiverComSpec`, element.py 4533-4544. -/
def QueuedReceiverComSpec : List (Field Cls) :=
  [opt "data_element_ref" [.ref "AutosarDataPrototypeRef"],
   opt "handle_out_of_range" [.enum "HandleOutOfRange"],
   opt "handle_out_of_range_status" [.enum "HandleOutOfRangeStatus"],
   opt "max_delta_counter_init" [.nat],
   opt "max_no_new_repeated_data" [.nat],
   opt "network_representation" [.cls .SwDataDefProps],
   opt "reception_props" [.cls .ReceptionComSpecProps],
   opt "replace_with" [.cls .VariableAccess],
   opt "sync_counter_init" [.nat],
   list "transformation_com_spec_props" [.cls .EndToEndTransformationComSpecProps],
   opt "uses_end_to_end_protection" [.bool],
   opt "queue_length" [.nat]]

/-- `NonqueuedReceiverComSpec`, element.py 4547-4579. -/
def NonqueuedReceiverComSpec : List (Field Cls) :=
  [opt "data_element_ref" [.ref "AutosarDataPrototypeRef"],
   opt "handle_out_of_range" [.enum "HandleOutOfRange"],
   opt "handle_out_of_range_status" [.enum "HandleOutOfRangeStatus"],
   opt "max_delta_counter_init" [.nat],
   opt "max_no_new_repeated_data" [.nat],
   opt "network_representation" [.cls .SwDataDefProps],
   opt "reception_props" [.cls .ReceptionComSpecProps],
   opt "replace_with" [.cls .VariableAccess],
   opt "sync_counter_init" [.nat],
   list "transformation_com_spec_props" [.cls .EndToEndTransformationComSpecProps],
   opt "uses_end_to_end_protection" [.bool],
   opt "alive_timeout" [.castFloat],
   opt "enable_update" [.bool],
   opt "data_filter" [.cls .DataFilter],
   opt "handle_data_status" [.bool],
   opt "handle_never_received" [.bool],
   opt "handle_timeout_type" [.enum "HandleTimeout"],
   opt "init_value" valueSpecs,
   opt "timeout_substitution_value" valueSpecs]

/-- `NvRequireComSpec`, element.py 4582-4596. -/
def NvRequireComSpec : List (Field Cls) :=
  [opt "variable_ref" [.ref "VariableDataPrototypeRef"],
   opt "init_value" valueSpecs]

/-- `ParameterRequireComSpec`, element.py 4599-4613. -/
def ParameterRequireComSpec : List (Field Cls) :=
  [opt "parameter_ref" [.ref "ParameterDataPrototypeRef"],
   opt "init_value" valueSpecs]

/-- `ModeSwitchReceiverComSpec`, element.py 4616-4633. -/
def ModeSwitchReceiverComSpec : List (Field Cls) :=
  [opt "mode_group_ref" [.ref "ModeDeclarationGroupPrototypeRef"],
   opt "enhanced_mode_api" [.bool],
   opt "supports_async" [.bool]]

/-- `ClientComSpec`, element.py 4636-4679. -/
def ClientComSpec : List (Field Cls) :=
  [opt "operation_ref" [.ref "ClientServerOperationRef"],
   opt "e2e_call_respone_timeout" [.castFloat],
   list "transformation_com_spec_props" [.cls .EndToEndTransformationComSpecProps]]

/-- `ProvidePortPrototype`, element.py 4698-4741. -/
def ProvidePortPrototype : List (Field Cls) :=
  identifiable ++
  [opt "port_interface_ref" [.ref "PortInterfaceRef"],
   list "com_spec" [.cls .ModeSwitchSenderComSpec, .cls .QueuedSenderComSpec, .cls .NonqueuedSenderComSpec,
      .cls .NvProvideComSpec, .cls .ParameterProvideComSpec, .cls .ServerComSpec]]

/-- `RequirePortPrototype`, element.py 4744-4791. -/
def RequirePortPrototype : List (Field Cls) :=
  identifiable ++
  [opt "port_interface_ref" [.ref "PortInterfaceRef"],
   list "com_spec" [.cls .QueuedReceiverComSpec, .cls .NonqueuedReceiverComSpec, .cls .NvRequireComSpec,
      .cls .ParameterRequireComSpec, .cls .ModeSwitchReceiverComSpec, .cls .ClientComSpec],
   opt "allow_unconnected" [.bool]]

/-- `PRPortPrototype`, element.py 4794-4849. -/
def PRPortPrototype : List (Field Cls) :=
  identifiable ++
  [opt "port_interface_ref" [.ref "PortInterfaceRef"],
   list "provided_com_spec" [.cls .ModeSwitchSenderComSpec, .cls .QueuedSenderComSpec, .cls .NonqueuedSenderComSpec,
      .cls .NvProvideComSpec, .cls .ParameterProvideComSpec, .cls .ServerComSpec],
   list "required_com_spec" [.cls .QueuedReceiverComSpec, .cls .NonqueuedReceiverComSpec, .cls .NvRequireComSpec,
      .cls .ParameterRequireComSpec, .cls .ModeSwitchReceiverComSpec, .cls .ClientComSpec]]

/-- `ApplicationSoftwareComponentType`, element.py 5185-5201. -/
def ApplicationSoftwareComponentType : List (Field Cls) :=
  identifiable ++
  [list "ports" [.cls .ProvidePortPrototype, .cls .RequirePortPrototype, .cls .PRPortPrototype],
   opt "internal_behavior" [.cls .SwcInternalBehavior],
   opt "symbol_props" [.cls .SymbolProps]]

/-- `SwComponentPrototype`, element.py 5204-5224. -/
def SwComponentPrototype : List (Field Cls) :=
  identifiable ++
  [opt "type_ref" [.ref "SwComponentTypeRef"]]

/-- `PortInCompositionTypeInstanceRef`, element.py 5227-5243. -/
def ProviderPortInstanceRef : List (Field Cls) :=
  [opt "component_ref" [.ref "SwComponentPrototypeRef"],
   opt "port_ref" [.refTo "PortPrototypeRef" ["ABSTRACT_PROVIDED_PORT_PROTOTYPE", "P_PORT_PROTOTYPE", "PR_PORT_PROTOTYPE"]]]

/-- `PortInCompositionTypeInstanceRef`, element.py 5227-5243. -/
def RequesterPortInstanceRef : List (Field Cls) :=
  [opt "component_ref" [.ref "SwComponentPrototypeRef"],
   opt "port_ref" [.refTo "PortPrototypeRef" ["ABSTRACT_REQUIRED_PORT_PROTOTYPE", "R_PORT_PROTOTYPE", "PR_PORT_PROTOTYPE"]]]

/-- `PortInCompositionTypeInstanceRef`, element.py 5227-5243. -/
def InnerProvidedPortInstanceRef : List (Field Cls) :=
  [opt "component_ref" [.ref "SwComponentPrototypeRef"],
   opt "port_ref" [.refTo "PortPrototypeRef" ["ABSTRACT_PROVIDED_PORT_PROTOTYPE", "P_PORT_PROTOTYPE", "PR_PORT_PROTOTYPE"]]]

/-- `PortInCompositionTypeInstanceRef`, element.py 5227-5243. -/
def InnerRequiredPortInstanceRef : List (Field Cls) :=
  [opt "component_ref" [.ref "SwComponentPrototypeRef"],
   opt "port_ref" [.refTo "PortPrototypeRef" ["ABSTRACT_REQUIRED_PORT_PROTOTYPE", "R_PORT_PROTOTYPE"]]]

/-- `AssemblySwConnector`, element.py 5259-5274. -/
def AssemblySwConnector : List (Field Cls) :=
  identifiable ++
  [opt "provide_port" [.cls .ProviderPortInstanceRef],
   opt "require_port" [.cls .RequesterPortInstanceRef]]

/-- `DelegationSwConnector`, element.py 5277-5305. -/
def DelegationSwConnector : List (Field Cls) :=
  identifiable ++
  [opt "inner_port" [.cls .InnerProvidedPortInstanceRef, .cls .InnerRequiredPortInstanceRef],
   opt "outer_port" [.ref "PortPrototypeRef"]]

/-- `PassThroughSwConnector`, element.py 5308-5324. -/
def PassThroughSwConnector : List (Field Cls) :=
  identifiable ++
  [opt "provide_port" [.ref "PortPrototypeRef"],
   opt "require_port" [.ref "PortPrototypeRef"]]

/-- `CompositionSwComponentType`, element.py 5327-5549. -/
def CompositionSwComponentType : List (Field Cls) :=
  identifiable ++
  [list "ports" [.cls .ProvidePortPrototype, .cls .RequirePortPrototype, .cls .PRPortPrototype],
   list "components" [.cls .SwComponentPrototype],
   list "connectors" [.cls .AssemblySwConnector, .cls .DelegationSwConnector, .cls .PassThroughSwConnector]]

/-- `POperationInAtomicSwcInstanceRef`, element.py 5559-5574. -/
def POperationInAtomicSwcInstanceRef : List (Field Cls) :=
  [opt "context_port" [.ref "AbstractProvidedPortPrototypeRef"],
   opt "target_provided_operation" [.ref "ClientServerOperationRef"]]

/-- `PModeGroupInAtomicSwcInstanceRef`, element.py 5577-5596. -/
def PModeGroupInAtomicSwcInstanceRef : List (Field Cls) :=
  [opt "context_port" [.ref "AbstractProvidedPortPrototypeRef"],
   opt "target_mode_group" [.ref "ModeDeclarationGroupPrototypeRef"]]

/-- `PTriggerInAtomicSwcTypeInstanceRef`, element.py 5599-5616. -/
def PTriggerInAtomicSwcTypeInstanceRef : List (Field Cls) :=
  [opt "context_port" [.ref "AbstractProvidedPortPrototypeRef"],
   opt "target_trigger" [.ref "TriggerRef"]]

/-- `ROperationInAtomicSwcInstanceRef`, element.py 5619-5634. -/
def ROperationInAtomicSwcInstanceRef : List (Field Cls) :=
  [opt "context_port" [.ref "AbstractRequiredPortPrototypeRef"],
   opt "target_required_operation" [.ref "ClientServerOperationRef"]]

/-- `RModeInAtomicSwcInstanceRef`, element.py 5637-5658. -/
def RModeInAtomicSwcInstanceRef : List (Field Cls) :=
  [opt "context_port" [.ref "AbstractRequiredPortPrototypeRef"],
   opt "context_mode_declaration_group_prototype" [.ref "ModeDeclarationGroupPrototypeRef"],
   opt "target_mode_declaration" [.ref "ModeDeclarationRef"]]

/-- `RModeGroupInAtomicSwcInstanceRef`, element.py 5661-5677. -/
def RModeGroupInAtomicSwcInstanceRef : List (Field Cls) :=
  [opt "context_port" [.ref "AbstractRequiredPortPrototypeRef"],
   opt "target_mode_group" [.ref "ModeDeclarationGroupPrototypeRef"]]

/-- `RVariableInAtomicSwcInstanceRef`, element.py 5680-5696. -/
def RVariableInAtomicSwcInstanceRef : List (Field Cls) :=
  [opt "context_port" [.ref "AbstractRequiredPortPrototypeRef"],
   opt "target_data_element" [.ref "VariableDataPrototypeRef"]]

/-- `RTriggerInAtomicSwcInstanceRef`, element.py 5699-5715. -/
def RTriggerInAtomicSwcInstanceRef : List (Field Cls) :=
  [opt "context_port" [.ref "AbstractRequiredPortPrototypeRef"],
   opt "target_trigger" [.ref "TriggerRef"]]

/-- `ArVariableInImplementationDataInstanceRef`, element.py 5721-5767. -/
def ArVariableInImplementationDataInstanceRef : List (Field Cls) :=
  [opt "port_prototype_ref" [.ref "PortPrototypeRef"],
   opt "root_variable_data_prototype_ref" [.ref "VariableDataPrototypeRef"],
   list "context_data_prototype_refs" [.ref "AbstractImplementationDataTypeElementRef"],
   opt "target_data_prototype_ref" [.ref "AbstractImplementationDataTypeElementRef"]]

/-- `VariableInAtomicSWCTypeInstanceRef`, element.py 5770-5813. -/
def VariableInAtomicSWCTypeInstanceRef : List (Field Cls) :=
  [opt "port_prototype_ref" [.ref "PortPrototypeRef"],
   opt "root_variable_data_prototype_ref" [.ref "VariableDataPrototypeRef"],
   list "context_data_prototype_refs" [.ref "ApplicationCompositeElementDataPrototypeRef"],
   opt "target_data_prototype_ref" [.ref "DataPrototypeRef"]]

/-- `AutosarVariableRef`, element.py 5816-5844. -/
def AutosarVariableRef : List (Field Cls) :=
  [opt "ar_variable_in_impl_datatype" [.cls .ArVariableInImplementationDataInstanceRef],
   opt "ar_variable_iref" [.cls .VariableInAtomicSWCTypeInstanceRef],
   opt "local_variable_ref" [.ref "VariableDataPrototypeRef"]]

/-- `VariableAccess`, element.py 5847-5908. -/
def VariableAccess : List (Field Cls) :=
  identifiable ++
  [opt "accessed_variable" [.cls .AutosarVariableRef],
   opt "scope" [.enum "VariableAccessScope"]]

/-- `SwcImplementation`, element.py 5911-5938. -/
def SwcImplementation : List (Field Cls) :=
  identifiable ++
  [list "code_descriptors" [.cls .Code],
   opt "behavior_ref" [.ref "SwcInternalBehaviorRef"],
   opt "required_rte_vendor" [.str]]

/-- `ExecutableEntityActivationReason`, element.py 5941-5953. -/
def ExecutableEntityActivationReason : List (Field Cls) :=
  [req "name" [.str],
   opt "symbol" [.str],
   opt "bit_position" [.nat]]

/-- `ExclusiveAreaRefConditional`, element.py 5956-5965. -/
def ExclusiveAreaRefConditional : List (Field Cls) :=
  [opt "exclusive_area" [.ref "ExclusiveAreaRef"]]

/-- `RunnableEntityArgument`, element.py 6083-6093. -/
def RunnableEntityArgument : List (Field Cls) :=
  [opt "symbol" [.str]]

/-- `AsynchronousServerCallPoint`, element.py 6133-6146. -/
def AsynchronousServerCallPoint : List (Field Cls) :=
  identifiable ++
  [opt "return_value_provision" [.enum "RteApiReturnValueProvision"],
   opt "operation" [.cls .ROperationInAtomicSwcInstanceRef],
   opt "timeout" [.castFloat]]

/-- `AsynchronousServerCallResultPoint`, element.py 6149-6171. -/
def AsynchronousServerCallResultPoint : List (Field Cls) :=
  identifiable ++
  [opt "return_value_provision" [.enum "RteApiReturnValueProvision"],
   opt "async_server_call_point" [.ref "AsynchronousServerCallPointRef"]]

/-- `SynchronousServerCallPoint`, element.py 6174-6190. -/
def SynchronousServerCallPoint : List (Field Cls) :=
  identifiable ++
  [opt "return_value_provision" [.enum "RteApiReturnValueProvision"],
   opt "operation" [.cls .ROperationInAtomicSwcInstanceRef],
   opt "timeout" [.castFloat],
   opt "called_from_within_exclusive_area" [.ref "ExclusiveAreaNestingOrderRef"]]

/-- `ExternalTriggeringPointIdent`, element.py 6193-6198. -/
def ExternalTriggeringPointIdent : List (Field Cls) :=
  identifiable ++
  [opt "return_value_provision" [.enum "RteApiReturnValueProvision"]]

/-- `ExternalTriggeringPoint`, element.py 6201-6219. -/
def ExternalTriggeringPoint : List (Field Cls) :=
  [opt "ident" [.cls .ExternalTriggeringPointIdent],
   opt "trigger" [.cls .PTriggerInAtomicSwcTypeInstanceRef]]

/-- `InternalTriggeringPoint`, element.py 6222-6235. -/
def InternalTriggeringPoint : List (Field Cls) :=
  identifiable ++
  [opt "return_value_provision" [.enum "RteApiReturnValueProvision"],
   opt "sw_impl_policy" [.enum "SwImplPolicy"]]

/-- `ModeAccessPointIdent`, element.py 6238-6252. -/
def ModeAccessPointIdent : List (Field Cls) :=
  identifiable ++
  [opt "return_value_provision" [.enum "RteApiReturnValueProvision"]]

/-- `ModeAccessPoint`, element.py 6255-6280. -/
def ModeAccessPoint : List (Field Cls) :=
  [opt "ident" [.cls .ModeAccessPointIdent],
   opt "mode_group" [.cls .PModeGroupInAtomicSwcInstanceRef, .cls .RModeGroupInAtomicSwcInstanceRef]]

/-- `ModeSwitchPoint`, element.py 6283-6306. -/
def ModeSwitchPoint : List (Field Cls) :=
  identifiable ++
  [opt "return_value_provision" [.enum "RteApiReturnValueProvision"],
   opt "mode_group" [.cls .PModeGroupInAtomicSwcInstanceRef]]

/-- `ParameterInAtomicSwcTypeInstanceRef`, element.py 6309-6335. -/
def ParameterInAtomicSwcTypeInstanceRef : List (Field Cls) :=
  [opt "port_prototype" [.ref "PortPrototypeRef"],
   opt "root_parameter_data_prototype" [.ref "DataPrototypeRef"],
   opt "context_data_prototype" [.ref "ApplicationCompositeElementDataPrototypeRef"],
   opt "target_data_prototype" [.ref "DataPrototypeRef"]]

/-- `AutosarParameterRef`, element.py 6338-6354. -/
def AutosarParameterRef : List (Field Cls) :=
  [opt "autosar_parameter" [.cls .ParameterInAtomicSwcTypeInstanceRef],
   opt "local_parameter" [.ref "DataPrototypeRef"]]

/-- `ParameterAccess`, element.py 6357-6383. -/
def ParameterAccess : List (Field Cls) :=
  identifiable ++
  [opt "return_value_provision" [.enum "RteApiReturnValueProvision"],
   opt "accessed_parameter" [.cls .AutosarParameterRef],
   opt "sw_data_def_props" [.cls .SwDataDefProps]]

/-- `WaitPoint`, element.py 6386-6404. -/
def WaitPoint : List (Field Cls) :=
  identifiable ++
  [opt "trigger" [.ref "RteEventRef"],
   opt "timeout" [.castFloat]]

/-- `RunnableEntity`, element.py 6425-7120. -/
def RunnableEntity : List (Field Cls) :=
  identifiable ++
  [list "activation_reasons" [.cls .ExecutableEntityActivationReason],
   list "can_enter_leave" [.cls .ExclusiveAreaRefConditional],
   list "exclusive_area_nesting_order" [.ref "ExclusiveAreaNestingOrderRef"],
   opt "minimum_start_interval" [.castFloat],
   opt "reentrancy_level" [.enum "ReentrancyLevel"],
   list "runs_insides" [.cls .ExclusiveAreaRefConditional],
   opt "sw_addr_method" [.ref "SwAddrMethodRef"],
   list "argument" [.cls .RunnableEntityArgument],
   list "async_server_call_result_point" [.cls .AsynchronousServerCallResultPoint],
   opt "can_be_invoked_concurrently" [.bool],
   list "data_read_access" [.cls .VariableAccess],
   list "data_receive_point_by_argument" [.cls .VariableAccess],
   list "data_receive_point_by_value" [.cls .VariableAccess],
   list "data_send_point" [.cls .VariableAccess],
   list "data_write_access" [.cls .VariableAccess],
   list "external_triggering_point" [.cls .ExternalTriggeringPoint],
   list "internal_triggering_point" [.cls .InternalTriggeringPoint],
   list "mode_access_point" [.cls .ModeAccessPoint],
   list "mode_switch_point" [.cls .ModeSwitchPoint],
   list "parameter_access" [.cls .ParameterAccess],
   list "read_local_variable" [.cls .VariableAccess],
   list "write_local_variable" [.cls .VariableAccess],
   list "server_call_point" [.cls .AsynchronousServerCallPoint, .cls .SynchronousServerCallPoint],
   list "wait_point" [.cls .WaitPoint],
   opt "symbol" [.str]]

/-- `AsynchronousServerCallReturnsEvent`, element.py 7157-7181. -/
def AsynchronousServerCallReturnsEvent : List (Field Cls) :=
  identifiable ++
  [opt "start_on_event" [.ref "RunnableEntityRef"],
   list "disabled_modes" [.cls .RModeInAtomicSwcInstanceRef],
   opt "event_source" [.ref "AsynchronousServerCallResultPointRef"]]

/-- `BackgroundEvent`, element.py 7184-7199. -/
def BackgroundEvent : List (Field Cls) :=
  identifiable ++
  [opt "start_on_event" [.ref "RunnableEntityRef"],
   list "disabled_modes" [.cls .RModeInAtomicSwcInstanceRef]]

/-- `DataReceiveErrorEvent`, element.py 7202-7242. -/
def DataReceiveErrorEvent : List (Field Cls) :=
  identifiable ++
  [opt "start_on_event" [.ref "RunnableEntityRef"],
   list "disabled_modes" [.cls .RModeInAtomicSwcInstanceRef],
   opt "data" [.cls .RVariableInAtomicSwcInstanceRef]]

/-- `DataReceivedEvent`, element.py 7245-7285. -/
def DataReceivedEvent : List (Field Cls) :=
  identifiable ++
  [opt "start_on_event" [.ref "RunnableEntityRef"],
   list "disabled_modes" [.cls .RModeInAtomicSwcInstanceRef],
   opt "data" [.cls .RVariableInAtomicSwcInstanceRef]]

/-- `DataSendCompletedEvent`, element.py 7288-7312. -/
def DataSendCompletedEvent : List (Field Cls) :=
  identifiable ++
  [opt "start_on_event" [.ref "RunnableEntityRef"],
   list "disabled_modes" [.cls .RModeInAtomicSwcInstanceRef],
   opt "event_source" [.ref "VariableAccessRef"]]

/-- `DataWriteCompletedEvent`, element.py 7315-7339. -/
def DataWriteCompletedEvent : List (Field Cls) :=
  identifiable ++
  [opt "start_on_event" [.ref "RunnableEntityRef"],
   list "disabled_modes" [.cls .RModeInAtomicSwcInstanceRef],
   opt "event_source" [.ref "VariableAccessRef"]]

/-- `ExternalTriggerOccurredEvent`, element.py 7342-7379. -/
def ExternalTriggerOccurredEvent : List (Field Cls) :=
  identifiable ++
  [opt "start_on_event" [.ref "RunnableEntityRef"],
   list "disabled_modes" [.cls .RModeInAtomicSwcInstanceRef],
   opt "trigger" [.cls .RTriggerInAtomicSwcInstanceRef]]

/-- `InitEvent`, element.py 7382-7397. -/
def InitEvent : List (Field Cls) :=
  identifiable ++
  [opt "start_on_event" [.ref "RunnableEntityRef"],
   list "disabled_modes" [.cls .RModeInAtomicSwcInstanceRef]]

/-- `InternalTriggerOccurredEvent`, element.py 7400-7424. -/
def InternalTriggerOccurredEvent : List (Field Cls) :=
  identifiable ++
  [opt "start_on_event" [.ref "RunnableEntityRef"],
   list "disabled_modes" [.cls .RModeInAtomicSwcInstanceRef],
   opt "event_source" [.ref "InternalTriggeringPointRef"]]

/-- `ModeSwitchedAckEvent`, element.py 7427-7451. -/
def ModeSwitchedAckEvent : List (Field Cls) :=
  identifiable ++
  [opt "start_on_event" [.ref "RunnableEntityRef"],
   list "disabled_modes" [.cls .RModeInAtomicSwcInstanceRef],
   opt "event_source" [.ref "ModeSwitchPointRef"]]

/-- `OperationInvokedEvent`, element.py 7454-7494. -/
def OperationInvokedEvent : List (Field Cls) :=
  identifiable ++
  [opt "start_on_event" [.ref "RunnableEntityRef"],
   list "disabled_modes" [.cls .RModeInAtomicSwcInstanceRef],
   opt "operation" [.cls .POperationInAtomicSwcInstanceRef]]

/-- `SwcModeManagerErrorEvent`, element.py 7502-7539. -/
def SwcModeManagerErrorEvent : List (Field Cls) :=
  identifiable ++
  [opt "start_on_event" [.ref "RunnableEntityRef"],
   list "disabled_modes" [.cls .RModeInAtomicSwcInstanceRef],
   opt "mode_group" [.cls .PModeGroupInAtomicSwcInstanceRef]]

/-- `SwcModeSwitchEvent`, element.py 7542-7605. -/
def SwcModeSwitchEvent : List (Field Cls) :=
  identifiable ++
  [opt "start_on_event" [.ref "RunnableEntityRef"],
   list "disabled_modes" [.cls .RModeInAtomicSwcInstanceRef],
   opt "activation" [.enum "ModeActivationKind"],
   ⟨"mode", "mode", (.many (some 2)), [.cls .RModeInAtomicSwcInstanceRef], false⟩]

/-- `TimingEvent`, element.py 7608-7637. -/
def TimingEvent : List (Field Cls) :=
  identifiable ++
  [opt "start_on_event" [.ref "RunnableEntityRef"],
   list "disabled_modes" [.cls .RModeInAtomicSwcInstanceRef],
   opt "period" [.castFloat],
   opt "offset" [.castFloat]]

/-- `TransformerHardErrorEvent`, element.py 7640-7673. -/
def TransformerHardErrorEvent : List (Field Cls) :=
  identifiable ++
  [opt "start_on_event" [.ref "RunnableEntityRef"],
   list "disabled_modes" [.cls .RModeInAtomicSwcInstanceRef],
   opt "operation" [.cls .POperationInAtomicSwcInstanceRef],
   opt "required_trigger" [.cls .RTriggerInAtomicSwcInstanceRef],
   opt "trigger" [.cls .PTriggerInAtomicSwcTypeInstanceRef]]

/-- `PortDefinedArgumentValue`, element.py 7676-7692. -/
def PortDefinedArgumentValue : List (Field Cls) :=
  [opt "value" valueSpecs,
   opt "value_type" [.ref "ImplementationDataTypeRef"]]

/-- `CommunicationBufferLocking`, element.py 7701-7713. -/
def CommunicationBufferLocking : List (Field Cls) :=
  [opt "support_buffer_locking" [.enum "SupportBufferLocking"]]

/-- `PortApiOption`, element.py 7720-7788. -/
def PortApiOption : List (Field Cls) :=
  [opt "port" [.ref "PortPrototypeRef"],
   opt "enable_take_address" [.bool],
   opt "indirect_api" [.bool],
   opt "error_handling" [.enum "DataTransformationErrorHandling"],
   list "port_arg_values" [.cls .PortDefinedArgumentValue],
   list "supported_features" [.cls .CommunicationBufferLocking],
   opt "transformer_status_forwarding" [.enum "DataTransformationStatusForwarding"]]

/-- `ExclusiveArea`, element.py 7791-7804. -/
def ExclusiveArea : List (Field Cls) :=
  identifiable

/-- `SwcInternalBehavior`, element.py 7875-8549. -/
def SwcInternalBehavior : List (Field Cls) :=
  identifiable ++
  [list "data_type_mappings" [.ref "DataTypeMappingSetRef"],
   list "exclusive_areas" [.cls .ExclusiveArea],
   list "events" [.cls .AsynchronousServerCallReturnsEvent, .cls .BackgroundEvent,
      .cls .DataReceiveErrorEvent, .cls .DataReceivedEvent, .cls .DataSendCompletedEvent,
      .cls .DataWriteCompletedEvent, .cls .ExternalTriggerOccurredEvent, .cls .InitEvent,
      .cls .InternalTriggerOccurredEvent, .cls .ModeSwitchedAckEvent, .cls .OperationInvokedEvent,
      .cls .SwcModeManagerErrorEvent, .cls .SwcModeSwitchEvent, .cls .TimingEvent,
      .cls .TransformerHardErrorEvent],
   list "runnables" [.cls .RunnableEntity],
   list "port_api_options" [.cls .PortApiOption]]

/-- The constructor arguments of each class (abstract classes are not constructed). -/
def ctor : Cls → List (Field Cls)
  | .DataFilter => DataFilter
  | .AutosarEngineeringObject => AutosarEngineeringObject
  | .Code => Code
  | .Break => Break
  | .EmphasisText => EmphasisText
  | .IndexEntry => IndexEntry
  | .TechnicalTerm => TechnicalTerm
  | .Subscript => Subscript
  | .Superscript => Superscript
  | .LanguageLongName => LanguageLongName
  | .MultilanguageLongName => MultilanguageLongName
  | .LanguageOverviewParagraph => LanguageOverviewParagraph
  | .MultiLanguageOverviewParagraph => MultiLanguageOverviewParagraph
  | .LanguageParagraph => LanguageParagraph
  | .MultiLanguageParagraph => MultiLanguageParagraph
  | .LanguageVerbatim => LanguageVerbatim
  | .MultiLanguageVerbatim => MultiLanguageVerbatim
  | .SingleLanguageUnitNames => SingleLanguageUnitNames
  | .DocumentationBlock => DocumentationBlock
  | .Annotation => Annotation
  | .CompuRational => CompuRational
  | .CompuConst => CompuConst
  | .CompuScale => CompuScale
  | .Computation => Computation
  | .CompuMethod => CompuMethod
  | .ScaleConstraint => ScaleConstraint
  | .InternalConstraint => InternalConstraint
  | .PhysicalConstraint => PhysicalConstraint
  | .DataConstraintRule => DataConstraintRule
  | .DataConstraint => DataConstraint
  | .Unit => Unit
  | .SwBaseType => SwBaseType
  | .SwBitRepresentation => SwBitRepresentation
  | .SwTextProps => SwTextProps
  | .SwPointerTargetProps => SwPointerTargetProps
  | .SwDataDefPropsConditional => SwDataDefPropsConditional
  | .SwDataDefProps => SwDataDefProps
  | .SymbolProps => SymbolProps
  | .ImplementationDataTypeElement => ImplementationDataTypeElement
  | .ImplementationDataType => ImplementationDataType
  | .VariableDataPrototype => VariableDataPrototype
  | .ParameterDataPrototype => ParameterDataPrototype
  | .ArgumentDataPrototype => ArgumentDataPrototype
  | .ApplicationPrimitiveDataType => ApplicationPrimitiveDataType
  | .ApplicationArrayElement => ApplicationArrayElement
  | .ApplicationArrayDataType => ApplicationArrayDataType
  | .ApplicationRecordElement => ApplicationRecordElement
  | .ApplicationRecordDataType => ApplicationRecordDataType
  | .DataTypeMap => DataTypeMap
  | .DataTypeMappingSet => DataTypeMappingSet
  | .ValueList => ValueList
  | .SwAddrMethod => SwAddrMethod
  | .Package => Package
  | .SwValues => SwValues
  | .ValueGroup => ValueGroup
  | .SwAxisCont => SwAxisCont
  | .SwValueCont => SwValueCont
  | .TextValueSpecification => TextValueSpecification
  | .NumericalValueSpecification => NumericalValueSpecification
  | .NotAvailableValueSpecification => NotAvailableValueSpecification
  | .ArrayValueSpecification => ArrayValueSpecification
  | .RecordValueSpecification => RecordValueSpecification
  | .ApplicationValueSpecification => ApplicationValueSpecification
  | .ConstantSpecification => ConstantSpecification
  | .ConstantReference => ConstantReference
  | .ModeDeclaration => ModeDeclaration
  | .ModeErrorBehavior => ModeErrorBehavior
  | .ModeTransition => ModeTransition
  | .ModeDeclarationGroup => ModeDeclarationGroup
  | .ModeDeclarationGroupPrototype => ModeDeclarationGroupPrototype
  | .ModeRequestTypeMap => ModeRequestTypeMap
  | .InvalidationPolicy => InvalidationPolicy
  | .SenderReceiverInterface => SenderReceiverInterface
  | .NvDataInterface => NvDataInterface
  | .ParameterInterface => ParameterInterface
  | .ApplicationError => ApplicationError
  | .ClientServerOperation => ClientServerOperation
  | .ClientServerInterface => ClientServerInterface
  | .ModeSwitchInterface => ModeSwitchInterface
  | .E2EProfileCompatibilityProps => E2EProfileCompatibilityProps
  | .EndToEndTransformationComSpecProps => EndToEndTransformationComSpecProps
  | .ModeSwitchedAckRequest => ModeSwitchedAckRequest
  | .TransmissionAcknowledgementRequest => TransmissionAcknowledgementRequest
  | .TransmissionComSpecProps => TransmissionComSpecProps
  | .ModeSwitchSenderComSpec => ModeSwitchSenderComSpec
  | .QueuedSenderComSpec => QueuedSenderComSpec
  | .NonqueuedSenderComSpec => NonqueuedSenderComSpec
  | .NvProvideComSpec => NvProvideComSpec
  | .ParameterProvideComSpec => ParameterProvideComSpec
  | .ServerComSpec => ServerComSpec
  | .ReceptionComSpecProps => ReceptionComSpecProps
  | .QueuedReceiverComSpec => QueuedReceiverComSpec
  | .NonqueuedReceiverComSpec => NonqueuedReceiverComSpec
  | .NvRequireComSpec => NvRequireComSpec
  | .ParameterRequireComSpec => ParameterRequireComSpec
  | .ModeSwitchReceiverComSpec => ModeSwitchReceiverComSpec
  | .ClientComSpec => ClientComSpec
  | .ProvidePortPrototype => ProvidePortPrototype
  | .RequirePortPrototype => RequirePortPrototype
  | .PRPortPrototype => PRPortPrototype
  | .ApplicationSoftwareComponentType => ApplicationSoftwareComponentType
  | .SwComponentPrototype => SwComponentPrototype
  | .ProviderPortInstanceRef => ProviderPortInstanceRef
  | .RequesterPortInstanceRef => RequesterPortInstanceRef
  | .InnerProvidedPortInstanceRef => InnerProvidedPortInstanceRef
  | .InnerRequiredPortInstanceRef => InnerRequiredPortInstanceRef
  | .AssemblySwConnector => AssemblySwConnector
  | .DelegationSwConnector => DelegationSwConnector
  | .PassThroughSwConnector => PassThroughSwConnector
  | .CompositionSwComponentType => CompositionSwComponentType
  | .POperationInAtomicSwcInstanceRef => POperationInAtomicSwcInstanceRef
  | .PModeGroupInAtomicSwcInstanceRef => PModeGroupInAtomicSwcInstanceRef
  | .PTriggerInAtomicSwcTypeInstanceRef => PTriggerInAtomicSwcTypeInstanceRef
  | .ROperationInAtomicSwcInstanceRef => ROperationInAtomicSwcInstanceRef
  | .RModeInAtomicSwcInstanceRef => RModeInAtomicSwcInstanceRef
  | .RModeGroupInAtomicSwcInstanceRef => RModeGroupInAtomicSwcInstanceRef
  | .RVariableInAtomicSwcInstanceRef => RVariableInAtomicSwcInstanceRef
  | .RTriggerInAtomicSwcInstanceRef => RTriggerInAtomicSwcInstanceRef
  | .ArVariableInImplementationDataInstanceRef => ArVariableInImplementationDataInstanceRef
  | .VariableInAtomicSWCTypeInstanceRef => VariableInAtomicSWCTypeInstanceRef
  | .AutosarVariableRef => AutosarVariableRef
  | .VariableAccess => VariableAccess
  | .SwcImplementation => SwcImplementation
  | .ExecutableEntityActivationReason => ExecutableEntityActivationReason
  | .ExclusiveAreaRefConditional => ExclusiveAreaRefConditional
  | .RunnableEntityArgument => RunnableEntityArgument
  | .AsynchronousServerCallPoint => AsynchronousServerCallPoint
  | .AsynchronousServerCallResultPoint => AsynchronousServerCallResultPoint
  | .SynchronousServerCallPoint => SynchronousServerCallPoint
  | .ExternalTriggeringPointIdent => ExternalTriggeringPointIdent
  | .ExternalTriggeringPoint => ExternalTriggeringPoint
  | .InternalTriggeringPoint => InternalTriggeringPoint
  | .ModeAccessPointIdent => ModeAccessPointIdent
  | .ModeAccessPoint => ModeAccessPoint
  | .ModeSwitchPoint => ModeSwitchPoint
  | .ParameterInAtomicSwcTypeInstanceRef => ParameterInAtomicSwcTypeInstanceRef
  | .AutosarParameterRef => AutosarParameterRef
  | .ParameterAccess => ParameterAccess
  | .WaitPoint => WaitPoint
  | .RunnableEntity => RunnableEntity
  | .AsynchronousServerCallReturnsEvent => AsynchronousServerCallReturnsEvent
  | .BackgroundEvent => BackgroundEvent
  | .DataReceiveErrorEvent => DataReceiveErrorEvent
  | .DataReceivedEvent => DataReceivedEvent
  | .DataSendCompletedEvent => DataSendCompletedEvent
  | .DataWriteCompletedEvent => DataWriteCompletedEvent
  | .ExternalTriggerOccurredEvent => ExternalTriggerOccurredEvent
  | .InitEvent => InitEvent
  | .InternalTriggerOccurredEvent => InternalTriggerOccurredEvent
  | .ModeSwitchedAckEvent => ModeSwitchedAckEvent
  | .OperationInvokedEvent => OperationInvokedEvent
  | .SwcModeManagerErrorEvent => SwcModeManagerErrorEvent
  | .SwcModeSwitchEvent => SwcModeSwitchEvent
  | .TimingEvent => TimingEvent
  | .TransformerHardErrorEvent => TransformerHardErrorEvent
  | .PortDefinedArgumentValue => PortDefinedArgumentValue
  | .CommunicationBufferLocking => CommunicationBufferLocking
  | .PortApiOption => PortApiOption
  | .ExclusiveArea => ExclusiveArea
  | .SwcInternalBehavior => SwcInternalBehavior
  | _ => []

end Verif.Codec.Schema
