import Verif.Codec.Lang
import Verif.Codec.Names
/-
The methods of the element reader (src/autosar/xml/reader.py), one definition per method.  The
names are those of the code without the prefix `_read_`; all line numbers are of
src/autosar/xml/reader.py.

Simplifications: of `ADMIN-DATA` only what may raise is kept (nothing else comes of it); elements
that are skipped or unknown are only reported by the code and do not occur here; the helper
methods that only select another method (`_read_value_specification_element` 3005-3015,
`_read_provided_com_spec` 4128-4136, `_read_required_com_spec` 4138-4146, `_read_rte_event_element` 5758-5766) and those that read a
list of one kind of element (`_read_annotations` 696-703, `_read_compu_scales` 1197-1206,
`_read_compu_numerator_denominator_values` 1300-1310, `_read_scale_constraints` 1413-1424,
`_read_sw_data_def_props_variants` 1684-1695) are inlined.
-/
namespace Verif.Codec.Reader

/-- `child = elements.get(tag); if child is not None: data[key] = read(child)` -/
def child (tag key : String) (a : RAtom RM) : RItem RM := .one tag key .self [(none, a)] none false

/-- `child = elements.get(tag); if child is not None: data[key] = [read(x) for x in
child.findall(inner)]` -/
def kids (tag key inner : String) (a : RAtom RM) : RItem RM :=
  .many tag key [(some inner, a)] none none

/-- Methods for value specifications, by tag; reader.py 178-187. -/
def valueSpecAlts : RAlts RM :=
  [(some "TEXT-VALUE-SPECIFICATION", .meth .text_value_specification),
   (some "NUMERICAL-VALUE-SPECIFICATION", .meth .numerical_value_specification),
   (some "NOT-AVAILABLE-VALUE-SPECIFICATION", .meth .not_available_value_specification),
   (some "ARRAY-VALUE-SPECIFICATION", .meth .array_value_specification),
   (some "RECORD-VALUE-SPECIFICATION", .meth .record_value_specification),
   (some "APPLICATION-VALUE-SPECIFICATION", .meth .application_value_specification),
   (some "CONSTANT-REFERENCE", .meth .constant_reference)]

/-- Methods for communication specifications of provided ports, by tag; reader.py 188-195. -/
def providedComSpecAlts : RAlts RM :=
  [(some "QUEUED-SENDER-COM-SPEC", .meth .queued_sender_com_spec),
   (some "MODE-SWITCH-SENDER-COM-SPEC", .meth .mode_switch_sender_com_spec),
   (some "NONQUEUED-SENDER-COM-SPEC", .meth .nonqueued_sender_com_spec),
   (some "NV-PROVIDE-COM-SPEC", .meth .nv_provider_com_spec),
   (some "PARAMETER-PROVIDE-COM-SPEC", .meth .parameter_provide_com_spec),
   (some "SERVER-COM-SPEC", .meth .server_com_spec)]

/-- Methods for communication specifications of required ports, by tag; reader.py 196-203. -/
def requiredComSpecAlts : RAlts RM :=
  [(some "QUEUED-RECEIVER-COM-SPEC", .meth .queued_receiver_com_spec),
   (some "NONQUEUED-RECEIVER-COM-SPEC", .meth .nonqueued_receiver_com_spec),
   (some "NV-REQUIRE-COM-SPEC", .meth .nv_require_com_spec),
   (some "PARAMETER-REQUIRE-COM-SPEC", .meth .parameter_require_com_spec),
   (some "MODE-SWITCH-RECEIVER-COM-SPEC", .meth .mode_switch_receiver_com_spec),
   (some "CLIENT-COM-SPEC", .meth .client_com_spec)]

/-- Methods for events, by tag; reader.py 204-220. -/
def rteEventAlts : RAlts RM :=
  [(some "ASYNCHRONOUS-SERVER-CALL-RETURNS-EVENT", .meth .async_server_call_returns_event),
   (some "BACKGROUND-EVENT", .meth .background_event),
   (some "DATA-RECEIVE-ERROR-EVENT", .meth .data_receive_error_event),
   (some "DATA-RECEIVED-EVENT", .meth .data_received_event),
   (some "DATA-SEND-COMPLETED-EVENT", .meth .data_send_completed_event),
   (some "DATA-WRITE-COMPLETED-EVENT", .meth .data_write_completed_event),
   (some "EXTERNAL-TRIGGER-OCCURRED-EVENT", .meth .external_trigger_occured_event),
   (some "INIT-EVENT", .meth .init_event),
   (some "INTERNAL-TRIGGER-OCCURRED-EVENT", .meth .internal_trigger_occured_event),
   (some "MODE-SWITCHED-ACK-EVENT", .meth .mode_switched_ack_event),
   (some "OPERATION-INVOKED-EVENT", .meth .operation_invoked_event),
   (some "SWC-MODE-MANAGER-ERROR-EVENT", .meth .swc_mode_manager_error_event),
   (some "SWC-MODE-SWITCH-EVENT", .meth .swc_mode_switch_event),
   (some "TIMING-EVENT", .meth .timing_event),
   (some "TRANSFORMER-HARD-ERROR-EVENT", .meth .transformer_hard_error_event)]

/-! ### Groups of statements shared by several methods -/

/-- `_read_referrable`, reader.py 479-493. -/
def referrable : List (RItem RM) :=
  [.required "SHORT-NAME" "name",
   child "LONG-NAME" "long_name" (.meth .multi_language_long_name)]

/-- `_read_multi_language_referrable`, reader.py 495-502. -/
def multi_language_referrable : List (RItem RM) :=
  [child "LONG-NAME" "long_name" (.meth .multi_language_long_name)]

/-- `_read_identifiable_attributes`, reader.py 528-531. -/
def identifiable_attributes : List (RItem RM) :=
  [.attr "UUID" "uuid" .text false]

/-- `_read_identifiable`, reader.py 504-526. -/
def identifiable : List (RItem RM) :=
  identifiable_attributes ++
  [child "DESC" "desc" (.meth .multi_language_overview_paragraph),
   child "CATEGORY" "category" (.conv .text),
   .admin,
   child "INTRODUCTION" "introduction" (.meth .documentation_block),
   kids "ANNOTATIONS" "annotations" "ANNOTATION" (.meth .annotation)]

/-- `_read_general_annotation`, reader.py 705-718. -/
def general_annotation : List (RItem RM) :=
  [child "LABEL" "label" (.meth .multi_language_long_name),
   child "ANNOTATION-ORIGIN" "origin" (.conv .text),
   child "ANNOTATION-TEXT" "text" (.meth .documentation_block)]

/-- `_read_emphasis_text_attr`, reader.py 758-769. -/
def emphasis_text_attr : List (RItem RM) :=
  [.attr "COLOR" "color" .str false,
   .attr "FONT" "font" (.enum "EmphasisFont") false,
   .attr "TYPE" "type" (.enum "EmphasisType") false]

/-- `_read_technical_term_attr`, reader.py 793-800. -/
def technical_term_attr : List (RItem RM) :=
  [.attr "TEX-RENDER" "tex_render" .str false,
   .attr "TYPE" "type" .str false]

/-- `_read_document_view_selectable_attrib`, reader.py 1040-1047. -/
def document_view_selectable_attrib : List (RItem RM) :=
  [.attr "SI" "semantic_information" .str false,
   .attr "VIEW" "view" .str false]

/-- `_read_paginateable_attrib`, reader.py 1049-1058. -/
def paginateable_attrib : List (RItem RM) :=
  [.attr "BREAK" "page_break" (.enum "PageBreak") false,
   .attr "KEEP-WITH-PREVIOUS" "keep_with_previous" (.enum "KeepWithPrevious") false]

/-- `_read_multi_language_paragraph_attrib`, reader.py 1060-1065. -/
def multi_language_paragraph_attrib : List (RItem RM) :=
  [.attr "HELP-ENTRY" "help_entry" .str false]

/-- `_read_multi_language_verbatim_attrib`, reader.py 1084-1096. -/
def multi_language_verbatim_attrib : List (RItem RM) :=
  [.attr "ALLOW-BREAK" "allow_break" .str false,
   .attr "FLOAT" "float" (.enum "Float") false,
   .attr "HELP-ENTRY" "help_entry" .str false,
   .attr "PGWIDE" "page_wide" (.enum "PageWide") false]

/-- `_read_describable`, reader.py 1128-1142. -/
def describable : List (RItem RM) :=
  [child "DESC" "desc" (.meth .multi_language_overview_paragraph),
   child "CATEGORY" "category" (.conv .text),
   child "INTRODUCTION" "introduction" (.meth .documentation_block)]

/-- `_read_compu_method_group`, reader.py 1161-1178. -/
def compu_method_group : List (RItem RM) :=
  [child "DISPLAY-FORMAT" "display_format" (.conv .text),
   child "UNIT-REF" "unit_ref" (.meth .unit_ref),
   child "COMPU-INTERNAL-TO-PHYS" "int_to_phys" (.meth .computation),
   child "COMPU-PHYS-TO-INTERNAL" "phys_to_int" (.meth .computation)]

/-- `_read_data_constraint_group`, reader.py 1329-1339. -/
def data_constraint_group : List (RItem RM) :=
  [kids "DATA-CONSTR-RULES" "rules" "DATA-CONSTR-RULE" (.meth .data_constraint_rule)]

/-- `_read_constraint_base`, reader.py 1385-1411. -/
def constraint_base : List (RItem RM) :=
  [child "LOWER-LIMIT" "lower_limit" (.limit),
   child "UPPER-LIMIT" "upper_limit" (.limit),
   kids "SCALE-CONSTRS" "scale_constr" "SCALE-CONSTR" (.meth .scale_constraint),
   child "MAX-GRADIENT" "max_gradient" (.conv .number),
   child "MAX-DIFF" "max_diff" (.conv .number),
   child "MONOTONY" "monotony" (.conv (.enum "Monotony"))]

/-- `_read_unit_group`, reader.py 1469-1485. -/
def unit_group : List (RItem RM) :=
  [child "DISPLAY-NAME" "display_name" (.meth .single_language_unit_names),
   child "FACTOR-SI-TO-UNIT" "factor" (.conv .float),
   child "OFFSET-SI-TO-UNIT" "offset" (.conv .float),
   child "PHYSICAL-DIMENSION-REF" "physical_dimension_ref" (.meth .physical_dimension_ref)]

/-- `_read_engineering_object`, reader.py 1520-1529. -/
def engineering_object : List (RItem RM) :=
  [child "SHORT-LABEL" "label" (.conv .text),
   child "CATEGORY" "category" (.conv .text)]

/-- `_read_implementation`, reader.py 1562-1585. -/
def implementation : List (RItem RM) :=
  [kids "CODE-DESCRIPTORS" "code_descriptors" "CODE" (.meth .code)]

/-- `_read_sw_addr_method_group`, reader.py 1604-1612. -/
def sw_addr_method_group : List (RItem RM) :=
  []

/-- `_read_base_type`, reader.py 1629-1653. -/
def base_type : List (RItem RM) :=
  [child "BASE-TYPE-SIZE" "size" (.conv .posInt),
   child "MAX-BASE-TYPE-SIZE" "max_size" (.conv .posInt),
   child "BASE-TYPE-ENCODING" "encoding" (.conv .str),
   child "MEM-ALIGNMENT" "alignment" (.conv .posInt),
   child "BYTE-ORDER" "byte_order" (.conv (.enum "ByteOrder")),
   child "NATIVE-DECLARATION" "native_declaration" (.conv .str)]

/-- `_read_sw_data_def_props_content`, reader.py 1710-1783. -/
def sw_data_def_props_content : List (RItem RM) :=
  [child "DISPLAY-PRESENTATION" "display_presentation" (.conv (.enum "DisplayPresentation")),
   child "STEP-SIZE" "step_size" (.conv .float),
   kids "ANNOTATIONS" "annotations" "ANNOTATION" (.meth .annotation),
   child "SW-ADDR-METHOD-REF" "sw_addr_method_ref" (.meth .sw_addr_method_ref),
   child "SW-ALIGNMENT" "alignment" (.conv .int0OrText),
   child "BASE-TYPE-REF" "base_type_ref" (.meth .sw_base_type_ref),
   child "SW-BIT-REPRESENTATION" "bit_representation" (.meth .sw_bit_representation),
   child "SW-CALIBRATION-ACCESS" "calibration_access" (.conv (.enum "SwCalibrationAccess")),
   child "SW-TEXT-PROPS" "text_props" (.meth .sw_text_props),
   child "COMPU-METHOD-REF" "compu_method_ref" (.meth .compu_method_ref),
   child "DATA-CONSTR-REF" "data_constraint_ref" (.meth .data_constraint_ref),
   child "DISPLAY-FORMAT" "display_format" (.conv .text),
   child "IMPLEMENTATION-DATA-TYPE-REF" "impl_data_type_ref" (.meth .impl_data_type_ref),
   child "SW-IMPL-POLICY" "impl_policy" (.conv (.enum "SwImplPolicy")),
   child "ADDITIONAL-NATIVE-TYPE-QUALIFIER" "additional_native_type_qualifier" (.conv .text),
   child "SW-INTENDED-RESOLUTION" "intended_resolution" (.conv .number),
   child "SW-INTERPOLATION-METHOD" "interpolation_method" (.conv .text),
   child "SW-IS-VIRTUAL" "is_virtual" (.conv .boolean),
   child "SW-POINTER-TARGET-PROPS" "ptr_target_props" (.meth .sw_pointer_target_props),
   child "UNIT-REF" "unit_ref" (.meth .unit_ref)]

/-- `_read_implementation_props`, reader.py 1841-1850. -/
def implementation_props : List (RItem RM) :=
  [child "SYMBOL" "symbol" (.conv .text)]

/-- `_read_implementation_data_type_element_group`, reader.py 1868-1899. -/
def implementation_data_type_element_group : List (RItem RM) :=
  [child "ARRAY-IMPL-POLICY" "array_impl_policy" (.conv (.enum "ArrayImplPolicy")),
   child "ARRAY-SIZE" "array_size" (.conv .int),
   child "ARRAY-SIZE-HANDLING" "array_size_handling" (.conv (.enum "ArraySizeHandling")),
   child "ARRAY-SIZE-SEMANTICS" "array_size_semantics" (.conv (.enum "ArraySizeSemantics")),
   child "IS-OPTIONAL" "is_optional" (.conv .boolean),
   kids "SUB-ELEMENTS" "sub_elements" "IMPLEMENTATION-DATA-TYPE-ELEMENT" (.meth .implementation_data_type_element),
   child "SW-DATA-DEF-PROPS" "sw_data_def_props" (.meth .sw_data_def_props)]

/-- `_read_implementation_data_type_group`, reader.py 1917-1939. -/
def implementation_data_type_group : List (RItem RM) :=
  [child "DYNAMIC-ARRAY-SIZE-PROFILE" "dynamic_array_size_profile" (.conv .text),
   child "IS-STRUCT-WITH-OPTIONAL-ELEMENT" "is_struct_with_optional_element" (.conv .boolean),
   kids "SUB-ELEMENTS" "sub_elements" "IMPLEMENTATION-DATA-TYPE-ELEMENT" (.meth .implementation_data_type_element),
   child "SYMBOL-PROPS" "symbol_props" (.meth .symbol_props),
   child "TYPE-EMITTER" "type_emitter" (.conv .text)]

/-- `_read_autosar_data_type`, reader.py 1941-1948. -/
def autosar_data_type : List (RItem RM) :=
  [child "SW-DATA-DEF-PROPS" "sw_data_def_props" (.meth .sw_data_def_props)]

/-- `_read_data_prototype`, reader.py 1950-1957. -/
def data_prototype : List (RItem RM) :=
  [child "SW-DATA-DEF-PROPS" "sw_data_def_props" (.meth .sw_data_def_props)]

/-- `_read_application_composite_element_data_prototype`, reader.py 1976-1985. -/
def application_composite_element_data_prototype : List (RItem RM) :=
  [child "TYPE-TREF" "type_ref" (.meth .application_data_type_ref)]

/-- `_read_autosar_data_prototype`, reader.py 1987-1996. -/
def autosar_data_prototype : List (RItem RM) :=
  [child "TYPE-TREF" "type_ref" (.meth .autosar_data_type_ref)]

/-- `_read_application_array_element_group`, reader.py 2015-2031. -/
def application_array_element_group : List (RItem RM) :=
  [child "ARRAY-SIZE-HANDLING" "array_size_handling" (.conv (.enum "ArraySizeHandling")),
   child "ARRAY-SIZE-SEMANTICS" "array_size_semantics" (.conv (.enum "ArraySizeSemantics")),
   child "INDEX-DATA-TYPE-REF" "index_data_type_ref" (.meth .index_data_type_ref),
   child "MAX-NUMBER-OF-ELEMENTS" "max_number_of_elements" (.conv .int)]

/-- `_read_application_record_element_group`, reader.py 2050-2057. -/
def application_record_element_group : List (RItem RM) :=
  [child "IS-OPTIONAL" "is_optional" (.conv .boolean)]

/-- `_read_application_array_data_type_group`, reader.py 2077-2086. -/
def application_array_data_type_group : List (RItem RM) :=
  [child "DYNAMIC-ARRAY-SIZE-PROFILE" "dynamic_array_size_profile" (.conv .text),
   child "ELEMENT" "element" (.meth .application_array_element)]

/-- `_read_application_record_data_type_group`, reader.py 2106-2115. -/
def application_record_data_type_group : List (RItem RM) :=
  [kids "ELEMENTS" "elements" "APPLICATION-RECORD-ELEMENT" (.meth .application_record_element)]

/-- `_read_read_data_type_mapping_set_group`, reader.py 2149-2159. -/
def read_data_type_mapping_set_group : List (RItem RM) :=
  [kids "DATA-TYPE-MAPS" "data_type_maps" "DATA-TYPE-MAP" (.meth .data_type_map)]

/-- `_read_parameter_data_prototype_group`, reader.py 2196-2208. -/
def parameter_data_prototype_group : List (RItem RM) :=
  [.one "INIT-VALUE" "init_value" .first valueSpecAlts (some .keyError) true]

/-- `_read_variable_data_prototype_group`, reader.py 2226-2238. -/
def variable_data_prototype_group : List (RItem RM) :=
  [.one "INIT-VALUE" "init_value" .first valueSpecAlts (some .keyError) true]

/-- `_read_argument_data_prototype_group`, reader.py 2256-2267. -/
def argument_data_prototype_group : List (RItem RM) :=
  [child "DIRECTION" "direction" (.conv (.enum "ArgumentDirection")),
   child "SERVER-ARGUMENT-IMPL-POLICY" "server_arg_impl_policy" (.conv (.enum "ServerArgImplPolicy"))]

/-- `_read_text_value_specification_group`, reader.py 2849-2856. -/
def text_value_specification_group : List (RItem RM) :=
  [child "VALUE" "value" (.conv .text)]

/-- `_read_numerical_value_specification_group`, reader.py 2874-2881. -/
def numerical_value_specification_group : List (RItem RM) :=
  [child "VALUE" "value" (.conv .number)]

/-- `_read_not_available_value_specification_group`, reader.py 2899-2907. -/
def not_available_value_specification_group : List (RItem RM) :=
  [child "DEFAULT-PATTERN" "default_pattern" (.conv .posInt)]

/-- `_read_array_value_specification_group`, reader.py 2925-2935. -/
def array_value_specification_group : List (RItem RM) :=
  [.many "ELEMENTS" "elements"
      valueSpecAlts (some .keyError) none]

/-- `_read_record_value_specification_group`, reader.py 2952-2962. -/
def record_value_specification_group : List (RItem RM) :=
  [.many "FIELDS" "fields"
      valueSpecAlts (some .keyError) none]

/-- `_read_value_specification_group`, reader.py 2964-2970. -/
def value_specification_group : List (RItem RM) :=
  [child "SHORT-LABEL" "label" (.conv .text)]

/-- `_read_application_value_specification_group`, reader.py 2987-3003. -/
def application_value_specification_group : List (RItem RM) :=
  [child "CATEGORY" "category" (.conv .text),
   kids "SW-AXIS-CONTS" "sw_axis_conts" "SW-AXIS-CONT" (.meth .sw_axis_cont),
   child "SW-VALUE-CONT" "sw_value_cont" (.meth .sw_value_cont)]

/-- `_read_constant_specification_group`, reader.py 3032-3040. -/
def constant_specification_group : List (RItem RM) :=
  [.one "VALUE-SPEC" "value" .first valueSpecAlts (some .keyError) false]

/-- `_read_constant_reference_group`, reader.py 3056-3062. -/
def constant_reference_group : List (RItem RM) :=
  [child "CONSTANT-REF" "constant_ref" (.meth .constant_ref)]

/-- `_read_sw_values_group`, reader.py 3079-3109. -/
def sw_values_group : List (RItem RM) :=
  [.flat "values"
      [(some "VT", .conv .text), (some "V", .conv .numVal), (some "VG", .meth .value_group)] none]

/-- `_read_sw_axis_cont_group`, reader.py 3135-3160. -/
def sw_axis_cont_group : List (RItem RM) :=
  [child "CATEGORY" "category" (.conv (.enum "CalibrationAxisCategory")),
   child "UNIT-REF" "unit_ref" (.meth .unit_ref),
   child "UNIT-DISPLAY-NAME" "unit_display_name" (.meth .single_language_unit_names),
   child "SW-AXIS-INDEX" "sw_axis_index" (.conv .intOrText),
   child "SW-ARRAYSIZE" "sw_array_size" (.meth .value_list),
   child "SW-VALUES-PHYS" "sw_values_phys" (.meth .sw_values)]

/-- `_read_sw_value_cont_group`, reader.py 3174-3189. -/
def sw_value_cont_group : List (RItem RM) :=
  [child "UNIT-REF" "unit_ref" (.meth .unit_ref),
   child "UNIT-DISPLAY-NAME" "unit_display_name" (.meth .single_language_unit_names),
   child "SW-ARRAYSIZE" "sw_array_size" (.meth .value_list),
   child "SW-VALUES-PHYS" "sw_values_phys" (.meth .sw_values)]

/-- `_read_mode_transition_group`, reader.py 3240-3249. -/
def mode_transition_group : List (RItem RM) :=
  [child "ENTERED-MODE-REF" "entered_mode_ref" (.meth .mode_declaration_ref),
   child "EXITED-MODE-REF" "exited_mode_ref" (.meth .mode_declaration_ref)]

/-- `_read_mode_declaration_group_data`, reader.py 3266-3297. -/
def mode_declaration_group_data : List (RItem RM) :=
  [child "INITIAL-MODE-REF" "initial_mode_ref" (.meth .mode_declaration_ref),
   kids "MODE-DECLARATIONS" "mode_declarations" "MODE-DECLARATION" (.meth .mode_declaration),
   child "MODE-MANAGER-ERROR-BEHAVIOR" "mode_manager_error_behavior" (.meth .mode_error_behavior),
   kids "MODE-TRANSITIONS" "mode_transitions" "MODE-TRANSITION" (.meth .mode_transition),
   child "MODE-USER-ERROR-BEHAVIOR" "mode_user_error_behavior" (.meth .mode_error_behavior),
   child "ON-TRANSITION-VALUE" "on_transition_value" (.conv .posInt)]

/-- `_read_mode_declaration_group_prototype_data`, reader.py 3316-3327. -/
def mode_declaration_group_prototype_data : List (RItem RM) :=
  [child "SW-CALIBRATION-ACCESS" "calibration_access" (.conv (.enum "SwCalibrationAccess")),
   child "TYPE-TREF" "type_ref" (.meth .mode_declaration_group_ref)]

/-- `_read_port_interface`, reader.py 3331-3340. -/
def port_interface : List (RItem RM) :=
  [child "IS-SERVICE" "is_service" (.conv .boolean)]

/-- `_read_nv_data_interface_group`, reader.py 3357-3369. -/
def nv_data_interface_group : List (RItem RM) :=
  [kids "NV-DATAS" "data_elements" "VARIABLE-DATA-PROTOTYPE" (.meth .variable_data_prototype)]

/-- `_read_parameter_interface_group`, reader.py 3386-3398. -/
def parameter_interface_group : List (RItem RM) :=
  [kids "PARAMETERS" "parameters" "PARAMETER-DATA-PROTOTYPE" (.meth .parameter_data_prototype)]

/-- `_read_sender_receiver_interface_group`, reader.py 3415-3436. -/
def sender_receiver_interface_group : List (RItem RM) :=
  [kids "DATA-ELEMENTS" "data_elements" "VARIABLE-DATA-PROTOTYPE" (.meth .variable_data_prototype),
   kids "INVALIDATION-POLICYS" "invalidation_policies" "INVALIDATION-POLICY" (.meth .invalidation_policy)]

/-- `_read_application_error_group`, reader.py 3467-3473. -/
def application_error_group : List (RItem RM) :=
  [child "ERROR-CODE" "error_code" (.conv .integer)]

/-- `_read_client_server_operation_group`, reader.py 3489-3517. -/
def client_server_operation_group : List (RItem RM) :=
  [kids "ARGUMENTS" "arguments" "ARGUMENT-DATA-PROTOTYPE" (.meth .argument_data_prototype),
   child "DIAG-ARG-INTEGRITY" "diag_arg_integrity" (.conv .boolean),
   child "FIRE-AND-FORGET" "fire_and_forget" (.conv .boolean),
   kids "POSSIBLE-ERROR-REFS" "possible_error_refs" "POSSIBLE-ERROR-REF" (.meth .application_error_ref)]

/-- `_read_client_server_interface_group`, reader.py 3534-3553. -/
def client_server_interface_group : List (RItem RM) :=
  [kids "OPERATIONS" "operations" "CLIENT-SERVER-OPERATION" (.meth .client_server_operation),
   kids "POSSIBLE-ERRORS" "possible_errors" "APPLICATION-ERROR" (.meth .application_error)]

/-- `_read_e2e_transformation_com_spec_props_group`, reader.py 3588-3642. -/
def e2e_transformation_com_spec_props_group : List (RItem RM) :=
  [child "CLEAR-FROM-VALID-TO-INVALID" "clear_from_valid_to_invalid" (.conv .boolean),
   child "DISABLE-END-TO-END-CHECK" "disable_e2e_check" (.conv .boolean),
   child "DISABLE-END-TO-END-STATE-MACHINE" "disable_e2e_state_machine" (.conv .boolean),
   child "E-2-E-PROFILE-COMPATIBILITY-PROPS-REF" "e2e_profile_compatibility_props_ref" (.meth .e2e_profile_compatibility_props_ref),
   child "MAX-DELTA-COUNTER" "max_delta_counter" (.conv .posInt),
   child "MAX-ERROR-STATE-INIT" "max_error_state_init" (.conv .posInt),
   child "MAX-ERROR-STATE-INVALID" "max_error_state_invalid" (.conv .posInt),
   child "MAX-ERROR-STATE-VALID" "max_error_state_valid" (.conv .posInt),
   child "MAX-NO-NEW-OR-REPEATED-DATA" "max_no_new_repeated_data" (.conv .posInt),
   child "MIN-OK-STATE-INIT" "min_ok_state_init" (.conv .posInt),
   child "MIN-OK-STATE-INVALID" "min_ok_state_invalid" (.conv .posInt),
   child "MIN-OK-STATE-VALID" "min_ok_state_valid" (.conv .posInt),
   child "SYNC-COUNTER-INIT" "sync_counter_init" (.conv .posInt),
   child "WINDOW-SIZE" "window_size" (.conv .posInt),
   child "WINDOW-SIZE-INIT" "window_size_init" (.conv .posInt),
   child "WINDOW-SIZE-INVALID" "window_size_invalid" (.conv .posInt),
   child "WINDOW-SIZE-VALID" "window_size_valid" (.conv .posInt)]

/-- `_read_e2e_profile_compatibility_props_group`, reader.py 3660-3666. -/
def e2e_profile_compatibility_props_group : List (RItem RM) :=
  [child "TRANSIT-TO-INVALID-EXTENDED" "transit_to_invalid_extended" (.conv .boolean)]

/-- `_read_sender_com_spec_group`, reader.py 3741-3765. -/
def sender_com_spec_group : List (RItem RM) :=
  [child "DATA-ELEMENT-REF" "data_element_ref" (.meth .autosar_data_prototype_ref),
   child "HANDLE-OUT-OF-RANGE" "handle_out_of_range" (.conv (.enum "HandleOutOfRange")),
   child "NETWORK-REPRESENTATION" "network_representation" (.meth .sw_data_def_props),
   child "TRANSMISSION-ACKNOWLEDGE" "transmission_acknowledge" (.meth .transmission_acknowledgement_request),
   child "TRANSMISSION-PROPS" "tranmsission_props" (.meth .tranmsission_com_spec_props),
   child "USES-END-TO-END-PROTECTION" "uses_end_to_end_protection" (.conv .boolean)]

/-- `_read_nonqueued_sender_com_spec_group`, reader.py 3794-3808. -/
def nonqueued_sender_com_spec_group : List (RItem RM) :=
  [child "DATA-FILTER" "data_filter" (.meth .data_filter),
   .one "INIT-VALUE" "init_value" .first valueSpecAlts (some .keyError) true]

/-- `_read_nv_provider_com_spec_group`, reader.py 3823-3845. -/
def nv_provider_com_spec_group : List (RItem RM) :=
  [.one "RAM-BLOCK-INIT-VALUE" "ram_block_init_value" .first valueSpecAlts (some .keyError) true,
   .one "ROM-BLOCK-INIT-VALUE" "rom_block_init_value" .first valueSpecAlts (some .keyError) true,
   child "VARIABLE-REF" "variable_ref" (.meth .variable_data_prototype_ref)]

/-- `_read_server_com_spec_group`, reader.py 3883-3900. -/
def server_com_spec_group : List (RItem RM) :=
  [child "OPERATION-REF" "operation_ref" (.meth .client_server_operation_ref),
   child "QUEUE-LENGTH" "queue_length" (.conv .posInt),
   kids "TRANSFORMATION-COM-SPEC-PROPSS" "transformation_com_spec_props" "END-TO-END-TRANSFORMATION-COM-SPEC-PROPS" (.meth .e2e_transformation_com_spec_props)]

/-- `_read_receiver_com_spec`, reader.py 3919-3962. -/
def receiver_com_spec : List (RItem RM) :=
  [child "DATA-ELEMENT-REF" "data_element_ref" (.meth .autosar_data_prototype_ref),
   child "HANDLE-OUT-OF-RANGE" "handle_out_of_range" (.conv (.enum "HandleOutOfRange")),
   child "HANDLE-OUT-OF-RANGE-STATUS" "handle_out_of_range_status" (.conv (.enum "HandleOutOfRangeStatus")),
   child "MAX-DELTA-COUNTER-INIT" "max_delta_counter_init" (.conv .posInt),
   child "MAX-NO-NEW-OR-REPEATED-DATA" "max_no_new_repeated_data" (.conv .posInt),
   child "NETWORK-REPRESENTATION" "network_representation" (.meth .sw_data_def_props),
   child "RECEPTION-PROPS" "reception_props" (.meth .reception_com_spec_props),
   child "REPLACE-WITH" "replace_with" (.meth .variable_access),
   child "SYNC-COUNTER-INIT" "sync_counter_init" (.conv .posInt),
   kids "TRANSFORMATION-COM-SPEC-PROPSS" "transformation_com_spec_props" "END-TO-END-TRANSFORMATION-COM-SPEC-PROPS" (.meth .e2e_transformation_com_spec_props),
   child "USES-END-TO-END-PROTECTION" "uses_end_to_end_protection" (.conv .boolean)]

/-- `_read_nonqueued_receiver_com_spec_group`, reader.py 3991-4028. -/
def nonqueued_receiver_com_spec_group : List (RItem RM) :=
  [child "ALIVE-TIMEOUT" "alive_timeout" (.conv .castFloat),
   child "ENABLE-UPDATE" "enable_update" (.conv .boolean),
   child "FILTER" "data_filter" (.meth .data_filter),
   child "HANDLE-DATA-STATUS" "handle_data_status" (.conv .boolean),
   child "HANDLE-NEVER-RECEIVED" "handle_never_received" (.conv .boolean),
   child "HANDLE-TIMEOUT-TYPE" "handle_timeout_type" (.conv (.enum "HandleTimeout")),
   .one "INIT-VALUE" "init_value" .first valueSpecAlts (some .keyError) true,
   .one "TIMEOUT-SUBSTITUTION-VALUE" "timeout_substitution_value" .first valueSpecAlts (some .keyError) true]

/-- `_read_client_com_spec_group`, reader.py 4108-4126. -/
def client_com_spec_group : List (RItem RM) :=
  [child "END-TO-END-CALL-RESPONSE-TIMEOUT" "e2e_call_respone_timeout" (.conv .castFloat),
   child "OPERATION-REF" "operation_ref" (.meth .client_server_operation_ref),
   kids "TRANSFORMATION-COM-SPEC-PROPSS" "transformation_com_spec_props" "END-TO-END-TRANSFORMATION-COM-SPEC-PROPS" (.meth .e2e_transformation_com_spec_props)]

/-- `_read_provide_port_prototype_group`, reader.py 4162-4174. -/
def provide_port_prototype_group : List (RItem RM) :=
  [.many "PROVIDED-COM-SPECS" "com_spec"
      providedComSpecAlts (some .keyError) none,
   child "PROVIDED-INTERFACE-TREF" "port_interface_ref" (.meth .port_interface_ref)]

/-- `_read_required_port_prototype_group`, reader.py 4190-4205. -/
def required_port_prototype_group : List (RItem RM) :=
  [.many "REQUIRED-COM-SPECS" "com_spec"
      requiredComSpecAlts (some .keyError) none,
   child "MAY-BE-UNCONNECTED" "allow_unconnected" (.conv .boolean),
   child "REQUIRED-INTERFACE-TREF" "port_interface_ref" (.meth .port_interface_ref)]

/-- `_read_pr_port_prototype_group`, reader.py 4221-4239. -/
def pr_port_prototype_group : List (RItem RM) :=
  [.many "PROVIDED-COM-SPECS" "provided_com_spec"
      providedComSpecAlts (some .keyError) none,
   .many "REQUIRED-COM-SPECS" "required_com_spec"
      requiredComSpecAlts (some .keyError) none,
   child "PROVIDED-REQUIRED-INTERFACE-TREF" "port_interface_ref" (.meth .port_interface_ref)]

/-- `_read_sw_component_type`, reader.py 4241-4260. -/
def sw_component_type : List (RItem RM) :=
  [.many "PORTS" "ports"
      [(some "P-PORT-PROTOTYPE", .meth .provide_port_prototype),
       (some "R-PORT-PROTOTYPE", .meth .require_port_prototype),
       (some "PR-PORT-PROTOTYPE", .meth .pr_port_prototype)] none none]

/-- `_read_atomic_sw_component_type`, reader.py 4262-4274. -/
def atomic_sw_component_type : List (RItem RM) :=
  [.one "INTERNAL-BEHAVIORS" "internal_behavior" (.tag "SWC-INTERNAL-BEHAVIOR") [(none, .meth .swc_internal_behavior)] none false,
   child "SYMBOL-PROPS" "symbol_props" (.meth .symbol_props)]

/-- `_read_sw_connector`, reader.py 4356-4361. -/
def sw_connector : List (RItem RM) :=
  []

/-- `_read_composition_sw_component_type_group`, reader.py 4424-4447. -/
def composition_sw_component_type_group : List (RItem RM) :=
  [.many "COMPONENTS" "components"
      [(none, .meth .sw_component_prototype)] none none,
   .many "CONNECTORS" "connectors"
      [(some "ASSEMBLY-SW-CONNECTOR", .meth .assembly_sw_connector),
       (some "DELEGATION-SW-CONNECTOR", .meth .delegation_sw_connector),
       (some "PASS-THROUGH-SW-CONNECTOR", .meth .pass_through_sw_connector)] none none]

/-- `_read_swc_implementation_group`, reader.py 4466-4476. -/
def swc_implementation_group : List (RItem RM) :=
  [child "BEHAVIOR-REF" "behavior_ref" (.meth .swc_internal_behavior_ref),
   child "REQUIRED-RTE-VENDOR" "required_rte_vendor" (.conv .text)]

/-- `_read_variable_in_impl_data_instance_ref_group`, reader.py 4643-4661. -/
def variable_in_impl_data_instance_ref_group : List (RItem RM) :=
  [child "PORT-PROTOTYPE-REF" "port_prototype_ref" (.meth .port_prototype_ref),
   child "ROOT-VARIABLE-DATA-PROTOTYPE-REF" "root_variable_data_prototype_ref" (.meth .variable_data_prototype_ref),
   kids "CONTEXT-DATA-PROTOTYPE-REFS" "context_data_prototype_refs" "CONTEXT-DATA-PROTOTYPE-REF" (.meth .abstract_impl_data_type_element_ref),
   child "TARGET-DATA-PROTOTYPE-REF" "target_data_prototype_ref" (.meth .abstract_impl_data_type_element_ref)]

/-- `_read_variable_access_group`, reader.py 4706-4715. -/
def variable_access_group : List (RItem RM) :=
  [child "ACCESSED-VARIABLE" "accessed_variable" (.meth .autosar_variable_ref),
   child "SCOPE" "scope" (.conv (.enum "VariableAccessScope"))]

/-- `_read_autosar_variable_ref_group`, reader.py 4730-4743. -/
def autosar_variable_ref_group : List (RItem RM) :=
  [child "AUTOSAR-VARIABLE-IN-IMPL-DATATYPE" "ar_variable_in_impl_datatype" (.meth .variable_in_impl_data_instance_ref),
   child "AUTOSAR-VARIABLE-IREF" "ar_variable_iref" (.meth .variable_in_atomic_swc_type_instance_ref),
   child "LOCAL-VARIABLE-REF" "local_variable_ref" (.meth .variable_data_prototype_ref)]

/-- `_read_abstract_access_point`, reader.py 4791-4797. -/
def abstract_access_point : List (RItem RM) :=
  [child "RETURN-VALUE-PROVISION" "return_value_provision" (.conv (.enum "RteApiReturnValueProvision"))]

/-- `_read_server_call_point`, reader.py 4799-4809. -/
def server_call_point : List (RItem RM) :=
  [child "OPERATION-IREF" "operation" (.meth .r_operation_in_atomic_swc_instance_ref),
   child "TIMEOUT" "timeout" (.conv .castFloat)]

/-- `_read_async_server_call_result_point_group`, reader.py 4861-4867. -/
def async_server_call_result_point_group : List (RItem RM) :=
  [child "ASYNCHRONOUS-SERVER-CALL-POINT-REF" "async_server_call_point" (.meth .async_server_call_point_ref)]

/-- `_read_parameter_access_group`, reader.py 5031-5041. -/
def parameter_access_group : List (RItem RM) :=
  [child "ACCESSED-PARAMETER" "accessed_parameter" (.meth .autosar_parameter_ref),
   child "SW-DATA-DEF-PROPS" "sw_data_def_props" (.meth .sw_data_def_props)]

/-- `_read_wait_point_group`, reader.py 5057-5066. -/
def wait_point_group : List (RItem RM) :=
  [child "TIMEOUT" "timeout" (.conv .castFloat),
   child "TRIGGER-REF" "trigger" (.meth .rte_event_ref)]

/-- `_read_executable_entity`, reader.py 5068-5126. -/
def executable_entity : List (RItem RM) :=
  [kids "ACTIVATION-REASONS" "activation_reasons" "EXECUTABLE-ENTITY-ACTIVATION-REASON" (.meth .executable_entity_activation_reason),
   kids "CAN-ENTERS" "can_enter_leave" "EXCLUSIVE-AREA-REF-CONDITIONAL" (.meth .exclusive_area_ref_conditional),
   kids "EXCLUSIVE-AREA-NESTING-ORDER-REFS" "exclusive_area_nesting_order" "EXCLUSIVE-AREA-NESTING-ORDER-REF" (.meth .exclusive_area_nesting_order_ref),
   child "MINIMUM-START-INTERVAL" "minimum_start_interval" (.conv .castFloat),
   child "REENTRANCY-LEVEL" "reentrancy_level" (.conv (.enum "ReentrancyLevel")),
   kids "RUNS-INSIDES" "runs_insides" "EXCLUSIVE-AREA-REF-CONDITIONAL" (.meth .exclusive_area_ref_conditional),
   child "SW-ADDR-METHOD-REF" "sw_addr_method" (.meth .sw_addr_method_ref)]

/-- `_read_runnable_entity_group`, reader.py 5143-5252. -/
def runnable_entity_group : List (RItem RM) :=
  [kids "ARGUMENTS" "argument" "RUNNABLE-ENTITY-ARGUMENT" (.meth .runnable_entity_argument),
   kids "ASYNCHRONOUS-SERVER-CALL-RESULT-POINTS" "async_server_call_result_point" "ASYNCHRONOUS-SERVER-CALL-RESULT-POINT" (.meth .async_server_call_result_point),
   child "CAN-BE-INVOKED-CONCURRENTLY" "can_be_invoked_concurrently" (.conv .boolean),
   kids "DATA-READ-ACCESSS" "data_read_access" "VARIABLE-ACCESS" (.meth .variable_access),
   kids "DATA-RECEIVE-POINT-BY-ARGUMENTS" "data_receive_point_by_argument" "VARIABLE-ACCESS" (.meth .variable_access),
   kids "DATA-RECEIVE-POINT-BY-VALUES" "data_receive_point_by_value" "VARIABLE-ACCESS" (.meth .variable_access),
   kids "DATA-SEND-POINTS" "data_send_point" "VARIABLE-ACCESS" (.meth .variable_access),
   kids "DATA-WRITE-ACCESSS" "data_write_access" "VARIABLE-ACCESS" (.meth .variable_access),
   kids "EXTERNAL-TRIGGERING-POINTS" "external_triggering_point" "EXTERNAL-TRIGGERING-POINT" (.meth .external_triggering_point),
   kids "INTERNAL-TRIGGERING-POINTS" "internal_triggering_point" "INTERNAL-TRIGGERING-POINT" (.meth .internal_triggering_point),
   kids "MODE-ACCESS-POINTS" "mode_access_point" "MODE-ACCESS-POINT" (.meth .mode_access_point),
   kids "MODE-SWITCH-POINTS" "mode_switch_point" "MODE-SWITCH-POINT" (.meth .mode_switch_point),
   kids "PARAMETER-ACCESSS" "parameter_access" "PARAMETER-ACCESS" (.meth .parameter_access),
   kids "READ-LOCAL-VARIABLES" "read_local_variable" "VARIABLE-ACCESS" (.meth .variable_access),
   .many "SERVER-CALL-POINTS" "server_call_point"
      [(some "ASYNCHRONOUS-SERVER-CALL-POINT", .meth .async_server_call_point),
       (some "SYNCHRONOUS-SERVER-CALL-POINT", .meth .sync_server_call_point)] none none,
   child "SYMBOL" "symbol" (.conv .text),
   kids "WAIT-POINTS" "wait_point" "WAIT-POINT" (.meth .wait_point),
   kids "WRITTEN-LOCAL-VARIABLES" "write_local_variable" "VARIABLE-ACCESS" (.meth .variable_access)]

/-- `_read_rte_event_group`, reader.py 5254-5267. -/
def rte_event_group : List (RItem RM) :=
  [kids "DISABLED-MODE-IREFS" "disabled_modes" "DISABLED-MODE-IREF" (.meth .r_mode_in_atomic_swc_instance_ref),
   child "START-ON-EVENT-REF" "start_on_event" (.meth .runnable_entity_ref)]

/-- `_read_swc_mode_switch_event_group`, reader.py 5508-5527. -/
def swc_mode_switch_event_group : List (RItem RM) :=
  [child "ACTIVATION" "activation" (.conv (.enum "ModeActivationKind")),
   .many "MODE-IREFS" "mode"
      [(some "MODE-IREF", .meth .r_mode_in_atomic_swc_instance_ref)] none (some 2)]

/-- `_read_transformer_hard_error_event_group`, reader.py 5568-5580. -/
def transformer_hard_error_event_group : List (RItem RM) :=
  [child "OPERATION-IREF" "operation" (.meth .p_operation_in_atomic_swc_instance_ref),
   child "REQUIRED-TRIGGER-IREF" "required_trigger" (.meth .r_trigger_in_atomic_swc_instance_ref),
   child "TRIGGER-IREF" "trigger" (.meth .p_trigger_in_atomic_swc_instance_ref)]

/-- `_read_port_api_option_group`, reader.py 5633-5668. -/
def port_api_option_group : List (RItem RM) :=
  [child "ENABLE-TAKE-ADDRESS" "enable_take_address" (.conv .boolean),
   child "ERROR-HANDLING" "error_handling" (.conv (.enum "DataTransformationErrorHandling")),
   child "INDIRECT-API" "indirect_api" (.conv .boolean),
   kids "PORT-ARG-VALUES" "port_arg_values" "PORT-DEFINED-ARGUMENT-VALUE" (.meth .port_defined_argument_value),
   child "PORT-REF" "port" (.meth .port_prototype_ref),
   child "PORT-REF" "port" (.meth .port_prototype_ref),
   kids "SUPPORTED-FEATURES" "supported_features" "COMMUNICATION-BUFFER-LOCKING" (.meth .communication_buffer_locking),
   child "TRANSFORMER-STATUS-FORWARDING" "transformer_status_forwarding" (.conv (.enum "DataTransformationStatusForwarding"))]

/-- `_read_internal_behavior_group`, reader.py 5697-5717. -/
def internal_behavior_group : List (RItem RM) :=
  [kids "DATA-TYPE-MAPPING-REFS" "data_type_mappings" "DATA-TYPE-MAPPING-REF" (.meth .data_type_mapping_set_ref),
   kids "EXCLUSIVE-AREAS" "exclusive_areas" "EXCLUSIVE-AREA" (.meth .exclusive_area)]

/-- `_read_swc_internal_behavior_group`, reader.py 5719-5756. -/
def swc_internal_behavior_group : List (RItem RM) :=
  [.many "EVENTS" "events"
      rteEventAlts (some .keyError) none,
   kids "PORT-API-OPTIONS" "port_api_options" "PORT-API-OPTION" (.meth .port_api_option),
   kids "RUNNABLES" "runnables" "RUNNABLE-ENTITY" (.meth .runnable_entity)]

/-! ### Methods -/

/-- `_read_annotation`, reader.py 687-694. -/
def annotation : RMethod Cls RM :=
  .node .Annotation
    (general_annotation)

/-- `_read_break`, reader.py 720-725. -/
def «break» : RMethod Cls RM :=
  .node .Break
    ([])

/-- `_read_documentation_block`, reader.py 727-741. -/
def documentation_block : RMethod Cls RM :=
  .node .DocumentationBlock
    ([.flat "element"
      [(some "P", .meth .multi_language_paragraph),
       (some "VERBATIM", .meth .multi_language_verbatim)] none])

/-- `_read_emphasis_text`, reader.py 743-756. -/
def emphasis_text : RMethod Cls RM :=
  .node .EmphasisText
    (emphasis_text_attr ++
    [.noKids .notImplemented,
     .text "elements" .text])

/-- `_read_index_entry`, reader.py 771-777. -/
def index_entry : RMethod Cls RM :=
  .node .IndexEntry
    ([.text "text" .text])

/-- `_read_technical_term`, reader.py 779-791. -/
def technical_term : RMethod Cls RM :=
  .node .TechnicalTerm
    (technical_term_attr ++
    [.noKids .parseError,
     .text "text" .text])

/-- `_read_superscript`, reader.py 802-807. -/
def superscript : RMethod Cls RM :=
  .node .Superscript
    ([.text "text" .text])

/-- `_read_subscript`, reader.py 809-814. -/
def subscript : RMethod Cls RM :=
  .node .Subscript
    ([.text "text" .text])

/-- `_read_multi_language_long_name`, reader.py 816-827. -/
def multi_language_long_name (tag : String) : RMethod Cls RM :=
  match tag with
  | "LONG-NAME" | "LABEL" =>
    .node .MultilanguageLongName
      ([.flat "elements"
        [(some "L-4", .meth .language_long_name)] none])
  | _ => .bad .assertionError

/-- `_read_language_long_name`, reader.py 829-875. -/
def language_long_name : RMethod Cls RM :=
  .mixed .LanguageLongName [.attr "L" "language" (.enum "Language") true] "parts" [("TT", .technical_term)]
    []

/-- `_read_multi_language_overview_paragraph`, reader.py 877-890. -/
def multi_language_overview_paragraph (tag : String) : RMethod Cls RM :=
  match tag with
  | "DESC" | "ITEM-LABEL" | "CHANGE" | "REASON" =>
    .node .MultiLanguageOverviewParagraph
      ([.flat "paragraph"
        [(some "L-2", .meth .language_overview_paragraph)] none])
  | _ => .bad .assertionError

/-- `_read_language_overview_paragraph`, reader.py 892-935. -/
def language_overview_paragraph : RMethod Cls RM :=
  .mixed .LanguageOverviewParagraph [.attr "L" "language" (.enum "Language") true] "parts" [("TT", .technical_term)]
    ["FT", "TRACE-REF", "XREF"]

/-- `_read_language_paragraph`, reader.py 937-996. -/
def language_paragraph : RMethod Cls RM :=
  .mixed .LanguageParagraph [.attr "L" "language" (.enum "Language") true] "parts" [("TT", .technical_term)]
    ["FT", "STD", "TRACE-REF", "XDOC", "XFILE", "XREF", "XREF-TARGET"]

/-- `_read_language_verbatim`, reader.py 949-1021. -/
def language_verbatim : RMethod Cls RM :=
  .mixed .LanguageVerbatim [.attr "L" "language" (.enum "Language") true] "parts" [("TT", .technical_term)]
    ["XREF"]

/-- `_read_multi_language_paragraph`, reader.py 1023-1038. -/
def multi_language_paragraph : RMethod Cls RM :=
  .node .MultiLanguageParagraph
    (document_view_selectable_attrib ++ paginateable_attrib ++
    multi_language_paragraph_attrib ++
    [.flat "paragraph"
      [(some "L-1", .meth .language_paragraph)] none])

/-- `_read_multi_language_verbatim`, reader.py 1067-1082. -/
def multi_language_verbatim : RMethod Cls RM :=
  .node .MultiLanguageVerbatim
    (document_view_selectable_attrib ++ paginateable_attrib ++
    multi_language_verbatim_attrib ++
    [.flat "element"
      [(some "L-5", .meth .language_verbatim)] none])

/-- `_read_single_language_unit_names`, reader.py 1098-1126. -/
def single_language_unit_names : RMethod Cls RM :=
  .mixed .SingleLanguageUnitNames [] "parts" [("SUB", .subscript), ("SUP", .superscript)]
    []

/-- `_read_compu_method`, reader.py 1146-1159. -/
def compu_method : RMethod Cls RM :=
  .node .CompuMethod
    (referrable ++ multi_language_referrable ++ identifiable ++ compu_method_group)

/-- `_read_computation`, reader.py 1180-1195. -/
def computation : RMethod Cls RM :=
  .node .Computation
    ([kids "COMPU-SCALES" "compu_scales" "COMPU-SCALE" (.meth .compu_scale),
     child "COMPU-DEFAULT-VALUE" "default_value" (.meth .compu_const)])

/-- `_read_compu_scale`, reader.py 1208-1252. -/
def compu_scale : RMethod Cls RM :=
  .node .CompuScale
    ([child "SHORT-LABEL" "label" (.conv .text),
     child "SYMBOL" "symbol" (.conv .text),
     child "DESC" "desc" (.meth .multi_language_overview_paragraph),
     child "MASK" "mask" (.conv .int),
     child "LOWER-LIMIT" "lower_limit" (.limit),
     child "UPPER-LIMIT" "upper_limit" (.limit),
     child "COMPU-INVERSE-VALUE" "inverse_value" (.meth .compu_const),
     .choice "content"
      [("COMPU-CONST", .meth .compu_const), ("COMPU-RATIONAL-COEFFS", .meth .compu_rational)] false])

/-- `_read_compu_const`, reader.py 1264-1281. -/
def compu_const : RMethod Cls RM :=
  .node .CompuConst
    ([.choice "value"
      [("V", .conv .number), ("VT", .conv .text)] true])

/-- `_read_compu_rational`, reader.py 1283-1298. -/
def compu_rational : RMethod Cls RM :=
  .node .CompuRational
    ([kids "COMPU-NUMERATOR" "numerator" "V" (.conv .numPlain),
     kids "COMPU-DENOMINATOR" "denominator" "V" (.conv .numPlain)])

/-- `_read_data_constraint`, reader.py 1314-1327. -/
def data_constraint : RMethod Cls RM :=
  .node .DataConstraint
    (referrable ++ multi_language_referrable ++ identifiable ++ data_constraint_group)

/-- `_read_data_constraint_rule`, reader.py 1341-1358. -/
def data_constraint_rule : RMethod Cls RM :=
  .node .DataConstraintRule
    ([child "CONSTR-LEVEL" "level" (.conv .int),
     child "PHYS-CONSTRS" "physical" (.meth .physical_constraint),
     child "INTERNAL-CONSTRS" "internal" (.meth .internal_constraint)])

/-- `_read_internal_constraint`, reader.py 1360-1369. -/
def internal_constraint : RMethod Cls RM :=
  .node .InternalConstraint
    (constraint_base)

/-- `_read_physical_constraint`, reader.py 1371-1383. -/
def physical_constraint : RMethod Cls RM :=
  .node .PhysicalConstraint
    (constraint_base ++
    [child "UNIT-REF" "unit_ref" (.meth .unit_ref)])

/-- `_read_scale_constraint`, reader.py 1426-1450. -/
def scale_constraint : RMethod Cls RM :=
  .node .ScaleConstraint
    ([child "SHORT-LABEL" "label" (.conv .text),
     child "DESC" "desc" (.meth .multi_language_overview_paragraph),
     child "LOWER-LIMIT" "lower_limit" (.limit),
     child "UPPER-LIMIT" "upper_limit" (.limit)])

/-- `_read_unit`, reader.py 1454-1467. -/
def unit : RMethod Cls RM :=
  .node .Unit
    (referrable ++ multi_language_referrable ++ identifiable ++ unit_group)

/-- `_read_data_filter`, reader.py 1489-1518. -/
def data_filter : RMethod Cls RM :=
  .node .DataFilter
    ([child "DATA-FILTER-TYPE" "data_filter_type" (.conv (.enum "DataFilterType")),
     child "MASK" "mask" (.conv .integer),
     child "MAX" "max_val" (.conv .integer),
     child "MIN" "min_val" (.conv .integer),
     child "OFFSET" "offset" (.conv .posInt),
     child "PERIOD" "period" (.conv .posInt),
     child "X" "x" (.conv .integer)])

/-- `_read_autosar_engineering_object`, reader.py 1531-1540. -/
def autosar_engineering_object : RMethod Cls RM :=
  .node .AutosarEngineeringObject
    (engineering_object)

/-- `_read_code`, reader.py 1542-1560. -/
def code : RMethod Cls RM :=
  .node .Code
    (referrable ++ multi_language_referrable ++ identifiable ++
    [kids "ARTIFACT-DESCRIPTORS" "artifact_descriptors" "AUTOSAR-ENGINEERING-OBJECT" (.meth .autosar_engineering_object)])

/-- `_read_package` up to the constructor call, reader.py 621-627. -/
def package : RMethod Cls RM :=
  .node .Package (referrable ++ multi_language_referrable ++ identifiable)

/-- `_read_sw_addr_method`, reader.py 1589-1602. -/
def sw_addr_method : RMethod Cls RM :=
  .node .SwAddrMethod
    (referrable ++ multi_language_referrable ++ identifiable ++ sw_addr_method_group)

/-- `_read_sw_base_type`, reader.py 1614-1627. -/
def sw_base_type : RMethod Cls RM :=
  .node .SwBaseType
    (referrable ++ multi_language_referrable ++ identifiable ++ base_type)

/-- `_read_sw_bit_representation`, reader.py 1655-1669. -/
def sw_bit_representation : RMethod Cls RM :=
  .node .SwBitRepresentation
    ([child "BIT-POSITION" "position" (.conv .int),
     child "NUMBER-OF-BITS" "num_bits" (.conv .int)])

/-- `_read_sw_data_def_props`, reader.py 1671-1682. -/
def sw_data_def_props : RMethod Cls RM :=
  .node .SwDataDefProps
    ([kids "SW-DATA-DEF-PROPS-VARIANTS" "variants" "SW-DATA-DEF-PROPS-CONDITIONAL" (.meth .sw_data_def_props_conditional)])

/-- `_read_sw_data_def_props_conditional`, reader.py 1697-1708. -/
def sw_data_def_props_conditional : RMethod Cls RM :=
  .node .SwDataDefPropsConditional
    (sw_data_def_props_content)

/-- `_read_sw_text_props`, reader.py 1785-1806. -/
def sw_text_props : RMethod Cls RM :=
  .node .SwTextProps
    ([child "ARRAY-SIZE-SEMANTICS" "array_size_semantics" (.conv (.enum "ArraySizeSemantics")),
     child "SW-MAX-TEXT-SIZE" "max_text_size" (.conv .integer),
     child "BASE-TYPE-REF" "base_type_ref" (.meth .sw_base_type_ref),
     child "SW-FILL-CHARACTER" "fill_char" (.conv .integer)])

/-- `_read_sw_pointer_target_props`, reader.py 1808-1826. -/
def sw_pointer_target_props : RMethod Cls RM :=
  .node .SwPointerTargetProps
    ([child "TARGET-CATEGORY" "target_category" (.conv .text),
     child "SW-DATA-DEF-PROPS" "sw_data_def_props" (.meth .sw_data_def_props),
     child "FUNCTION-POINTER-SIGNATURE-REF" "function_ptr_signature_ref" (.meth .function_ptr_signature_ref)])

/-- `_read_symbol_props`, reader.py 1828-1839. -/
def symbol_props : RMethod Cls RM :=
  .node .SymbolProps
    (referrable ++ implementation_props)

/-- `_read_implementation_data_type_element`, reader.py 1852-1866. -/
def implementation_data_type_element : RMethod Cls RM :=
  .node .ImplementationDataTypeElement
    (referrable ++ multi_language_referrable ++ identifiable ++
    implementation_data_type_element_group)

/-- `_read_implementation_data_type`, reader.py 1901-1915. -/
def implementation_data_type : RMethod Cls RM :=
  .node .ImplementationDataType
    (referrable ++ multi_language_referrable ++ identifiable ++ autosar_data_type ++
    implementation_data_type_group)

/-- `_read_application_primitive_data_type`, reader.py 1959-1974. -/
def application_primitive_data_type : RMethod Cls RM :=
  .node .ApplicationPrimitiveDataType
    (referrable ++ multi_language_referrable ++ identifiable ++ autosar_data_type)

/-- `_read_application_array_element`, reader.py 1998-2013. -/
def application_array_element : RMethod Cls RM :=
  .node .ApplicationArrayElement
    (referrable ++ multi_language_referrable ++ identifiable ++ data_prototype ++
    application_composite_element_data_prototype ++ application_array_element_group)

/-- `_read_application_record_element`, reader.py 2033-2048. -/
def application_record_element : RMethod Cls RM :=
  .node .ApplicationRecordElement
    (referrable ++ multi_language_referrable ++ identifiable ++ data_prototype ++
    application_composite_element_data_prototype ++ application_record_element_group)

/-- `_read_application_array_data_type`, reader.py 2059-2075. -/
def application_array_data_type : RMethod Cls RM :=
  .node .ApplicationArrayDataType
    (referrable ++ multi_language_referrable ++ identifiable ++ autosar_data_type ++
    application_array_data_type_group)

/-- `_read_application_record_data_type`, reader.py 2088-2104. -/
def application_record_data_type : RMethod Cls RM :=
  .node .ApplicationRecordDataType
    (referrable ++ multi_language_referrable ++ identifiable ++ autosar_data_type ++
    application_record_data_type_group)

/-- `_read_data_type_map`, reader.py 2117-2131. -/
def data_type_map : RMethod Cls RM :=
  .node .DataTypeMap
    ([child "APPLICATION-DATA-TYPE-REF" "appl_data_type_ref" (.meth .application_data_type_ref),
     child "IMPLEMENTATION-DATA-TYPE-REF" "impl_data_type_ref" (.meth .impl_data_type_ref)])

/-- `_read_data_type_mapping_set`, reader.py 2133-2147. -/
def data_type_mapping_set : RMethod Cls RM :=
  .node .DataTypeMappingSet
    (referrable ++ multi_language_referrable ++ identifiable ++
    read_data_type_mapping_set_group)

/-- `_read_value_list`, reader.py 2161-2178. -/
def value_list : RMethod Cls RM :=
  .node .ValueList
    ([.flat "values"
      [(some "V", .conv .numVal)] none])

/-- `_read_parameter_data_prototype`, reader.py 2180-2194. -/
def parameter_data_prototype : RMethod Cls RM :=
  .node .ParameterDataPrototype
    (referrable ++ multi_language_referrable ++ identifiable ++ data_prototype ++
    autosar_data_prototype ++ parameter_data_prototype_group)

/-- `_read_variable_data_prototype`, reader.py 2210-2224. -/
def variable_data_prototype : RMethod Cls RM :=
  .node .VariableDataPrototype
    (referrable ++ multi_language_referrable ++ identifiable ++ data_prototype ++
    autosar_data_prototype ++ variable_data_prototype_group)

/-- `_read_argument_data_prototype`, reader.py 2240-2254. -/
def argument_data_prototype : RMethod Cls RM :=
  .node .ArgumentDataPrototype
    (referrable ++ multi_language_referrable ++ identifiable ++ data_prototype ++
    autosar_data_prototype ++ argument_data_prototype_group)

/-- `_read_mode_request_type_map`, reader.py 2269-2283. -/
def mode_request_type_map : RMethod Cls RM :=
  .node .ModeRequestTypeMap
    ([child "IMPLEMENTATION-DATA-TYPE-REF" "implementation_data_type" (.meth .impl_data_type_ref),
     child "MODE-GROUP-REF" "mode_group" (.meth .mode_declaration_group_ref)])

/-- `_read_compu_method_ref`, reader.py 2300-2309. -/
def compu_method_ref : RMethod Cls RM :=
  .ref "CompuMethodRef" (some "COMPU-METHOD")

/-- `_read_data_constraint_ref`, reader.py 2311-2323. -/
def data_constraint_ref : RMethod Cls RM :=
  .ref "DataConstraintRef" (some "DATA-CONSTR")

/-- `_read_function_ptr_signature_ref`, reader.py 2325-2337. -/
def function_ptr_signature_ref : RMethod Cls RM :=
  .ref "FunctionPtrSignatureRef" (some "BSW-MODULE-ENTRY")

/-- `_read_impl_data_type_ref`, reader.py 2339-2352. -/
def impl_data_type_ref : RMethod Cls RM :=
  .ref "ImplementationDataTypeRef" (some "IMPLEMENTATION-DATA-TYPE")

/-- `_read_sw_base_type_ref`, reader.py 2354-2366. -/
def sw_base_type_ref : RMethod Cls RM :=
  .ref "SwBaseTypeRef" (some "SW-BASE-TYPE")

/-- `_read_sw_addr_method_ref`, reader.py 2368-2378. -/
def sw_addr_method_ref : RMethod Cls RM :=
  .ref "SwAddrMethodRef" (some "SW-ADDR-METHOD")

/-- `_read_unit_ref`, reader.py 2380-2390. -/
def unit_ref : RMethod Cls RM :=
  .ref "UnitRef" (some "UNIT")

/-- `_read_physical_dimension_ref`, reader.py 2392-2403. -/
def physical_dimension_ref : RMethod Cls RM :=
  .ref "PhysicalDimensionRef" (some "PHYSICAL-DIMENSION")

/-- `_read_index_data_type_ref`, reader.py 2405-2416. -/
def index_data_type_ref : RMethod Cls RM :=
  .ref "IndexDataTypeRef" (some "APPLICATION-PRIMITIVE-DATA-TYPE")

/-- `_read_application_data_type_ref`, reader.py 2418-2429. -/
def application_data_type_ref : RMethod Cls RM :=
  .ref "ApplicationDataTypeRef" none

/-- `_read_autosar_data_type_ref`, reader.py 2431-2442. -/
def autosar_data_type_ref : RMethod Cls RM :=
  .ref "AutosarDataTypeRef" none

/-- `_read_constant_ref`, reader.py 2444-2457. -/
def constant_ref : RMethod Cls RM :=
  .ref "ConstantRef" (some "CONSTANT-SPECIFICATION")

/-- `_read_variable_data_prototype_ref`, reader.py 2459-2471. -/
def variable_data_prototype_ref : RMethod Cls RM :=
  .ref "VariableDataPrototypeRef" (some "VARIABLE-DATA-PROTOTYPE")

/-- `_read_parameter_data_prototype_ref`, reader.py 2473-2485. -/
def parameter_data_prototype_ref : RMethod Cls RM :=
  .ref "ParameterDataPrototypeRef" (some "PARAMETER-DATA-PROTOTYPE")

/-- `_read_application_error_ref`, reader.py 2487-2499. -/
def application_error_ref : RMethod Cls RM :=
  .ref "ApplicationErrorRef" (some "APPLICATION-ERROR")

/-- `_read_mode_declaration_ref`, reader.py 2501-2513. -/
def mode_declaration_ref : RMethod Cls RM :=
  .ref "ModeDeclarationRef" (some "MODE-DECLARATION")

/-- `_read_mode_declaration_group_ref`, reader.py 2515-2527. -/
def mode_declaration_group_ref : RMethod Cls RM :=
  .ref "ModeDeclarationGroupRef" (some "MODE-DECLARATION-GROUP")

/-- `_read_mode_declaration_group_prototype_ref`, reader.py 2529-2540. -/
def mode_declaration_group_prototype_ref : RMethod Cls RM :=
  .ref "ModeDeclarationGroupPrototypeRef" (some "MODE-DECLARATION-GROUP-PROTOTYPE")

/-- `_read_autosar_data_prototype_ref`, reader.py 2542-2551. -/
def autosar_data_prototype_ref : RMethod Cls RM :=
  .ref "AutosarDataPrototypeRef" none

/-- `_read_e2e_profile_compatibility_props_ref`, reader.py 2553-2564. -/
def e2e_profile_compatibility_props_ref : RMethod Cls RM :=
  .ref "E2EProfileCompatibilityPropsRef" (some "E-2-E-PROFILE-COMPATIBILITY-PROPS")

/-- `_read_client_server_operation_ref`, reader.py 2566-2577. -/
def client_server_operation_ref : RMethod Cls RM :=
  .ref "ClientServerOperationRef" (some "CLIENT-SERVER-OPERATION")

/-- `_read_port_prototype_ref`, reader.py 2579-2588. -/
def port_prototype_ref : RMethod Cls RM :=
  .ref "PortPrototypeRef" none

/-- `_read_abstract_impl_data_type_element_ref`, reader.py 2590-2599. -/
def abstract_impl_data_type_element_ref : RMethod Cls RM :=
  .ref "AbstractImplementationDataTypeElementRef" none

/-- `_read_appl_composite_element_data_proto_ref`, reader.py 2601-2610. -/
def appl_composite_element_data_proto_ref : RMethod Cls RM :=
  .ref "ApplicationCompositeElementDataPrototypeRef" none

/-- `_read_data_prototype_ref`, reader.py 2612-2621. -/
def data_prototype_ref : RMethod Cls RM :=
  .ref "DataPrototypeRef" none

/-- `_read_port_interface_ref`, reader.py 2623-2632. -/
def port_interface_ref : RMethod Cls RM :=
  .ref "PortInterfaceRef" none

/-- `_read_sw_component_type_ref`, reader.py 2634-2643. -/
def sw_component_type_ref : RMethod Cls RM :=
  .ref "SwComponentTypeRef" none

/-- `_read_sw_component_prototype_ref`, reader.py 2645-2656. -/
def sw_component_prototype_ref : RMethod Cls RM :=
  .ref "SwComponentPrototypeRef" (some "SW-COMPONENT-PROTOTYPE")

/-- `_read_swc_internal_behavior_ref`, reader.py 2658-2669. -/
def swc_internal_behavior_ref : RMethod Cls RM :=
  .ref "SwcInternalBehaviorRef" (some "SWC-INTERNAL-BEHAVIOR")

/-- `_read_exclusive_area_ref`, reader.py 2671-2680. -/
def exclusive_area_ref : RMethod Cls RM :=
  .ref "ExclusiveAreaRef" none

/-- `_read_exclusive_area_nesting_order_ref`, reader.py 2682-2691. -/
def exclusive_area_nesting_order_ref : RMethod Cls RM :=
  .ref "ExclusiveAreaNestingOrderRef" none

/-- `_read_abstract_required_port_prototype_ref`, reader.py 2693-2700. -/
def abstract_required_port_prototype_ref : RMethod Cls RM :=
  .ref "AbstractRequiredPortPrototypeRef" none

/-- `_read_abstract_provided_port_prototype_ref`, reader.py 2702-2709. -/
def abstract_provided_port_prototype_ref : RMethod Cls RM :=
  .ref "AbstractProvidedPortPrototypeRef" none

/-- `_read_runnable_entity_ref`, reader.py 2711-2718. -/
def runnable_entity_ref : RMethod Cls RM :=
  .ref "RunnableEntityRef" none

/-- `_read_variable_access_ref`, reader.py 2720-2728. -/
def variable_access_ref : RMethod Cls RM :=
  .ref "VariableAccessRef" none

/-- `_read_mode_switch_point_ref`, reader.py 2730-2738. -/
def mode_switch_point_ref : RMethod Cls RM :=
  .ref "ModeSwitchPointRef" none

/-- `_read_async_server_call_point_ref`, reader.py 2740-2748. -/
def async_server_call_point_ref : RMethod Cls RM :=
  .ref "AsynchronousServerCallPointRef" none

/-- `_read_async_server_call_result_point_ref`, reader.py 2750-2758. -/
def async_server_call_result_point_ref : RMethod Cls RM :=
  .ref "AsynchronousServerCallResultPointRef" none

/-- `_read_trigger_ref`, reader.py 2760-2770. -/
def trigger_ref : RMethod Cls RM :=
  .ref "TriggerRef" none

/-- `_read_internal_triggering_point_ref`, reader.py 2772-2780. -/
def internal_triggering_point_ref : RMethod Cls RM :=
  .ref "InternalTriggeringPointRef" none

/-- `_read_rte_event_ref`, reader.py 2782-2790. -/
def rte_event_ref : RMethod Cls RM :=
  .ref "RteEventRef" none

/-- `_read_data_type_mapping_set_ref`, reader.py 2792-2800. -/
def data_type_mapping_set_ref : RMethod Cls RM :=
  .ref "DataTypeMappingSetRef" none

/-- `_read_argument_data_prototype_ref`, reader.py 2802-2810. -/
def argument_data_prototype_ref : RMethod Cls RM :=
  .ref "ArgumentDataPrototypeRef" none

/-- `_read_application_array_element_ref`, reader.py 2812-2820. -/
def application_array_element_ref : RMethod Cls RM :=
  .ref "ApplicationArrayElementRef" none

/-- `_read_application_record_element_ref`, reader.py 2822-2830. -/
def application_record_element_ref : RMethod Cls RM :=
  .ref "ApplicationRecordElementRef" none

/-- `_read_text_value_specification`, reader.py 2834-2847. -/
def text_value_specification : RMethod Cls RM :=
  .node .TextValueSpecification
    (value_specification_group ++ text_value_specification_group)

/-- `_read_numerical_value_specification`, reader.py 2858-2872. -/
def numerical_value_specification : RMethod Cls RM :=
  .node .NumericalValueSpecification
    (value_specification_group ++ numerical_value_specification_group)

/-- `_read_not_available_value_specification`, reader.py 2883-2897. -/
def not_available_value_specification : RMethod Cls RM :=
  .node .NotAvailableValueSpecification
    (value_specification_group ++ not_available_value_specification_group)

/-- `_read_array_value_specification`, reader.py 2910-2923. -/
def array_value_specification : RMethod Cls RM :=
  .node .ArrayValueSpecification
    (value_specification_group ++ array_value_specification_group)

/-- `_read_record_value_specification`, reader.py 2937-2950. -/
def record_value_specification : RMethod Cls RM :=
  .node .RecordValueSpecification
    (value_specification_group ++ record_value_specification_group)

/-- `_read_application_value_specification`, reader.py 2972-2985. -/
def application_value_specification : RMethod Cls RM :=
  .node .ApplicationValueSpecification
    (value_specification_group ++ application_value_specification_group)

/-- `_read_constant_specification`, reader.py 3017-3030. -/
def constant_specification : RMethod Cls RM :=
  .node .ConstantSpecification
    (referrable ++ multi_language_referrable ++ identifiable ++
    constant_specification_group)

/-- `_read_constant_reference`, reader.py 3042-3054. -/
def constant_reference : RMethod Cls RM :=
  .node .ConstantReference
    (value_specification_group ++ constant_reference_group)

/-- `_read_sw_values`, reader.py 3066-3077. -/
def sw_values : RMethod Cls RM :=
  .node .SwValues
    (sw_values_group)

/-- `_read_value_group`, reader.py 3111-3121. -/
def value_group : RMethod Cls RM :=
  .node .ValueGroup
    ([child "LABEL" "label" (.meth .multi_language_long_name)] ++ sw_values_group)

/-- `_read_sw_axis_cont`, reader.py 3123-3133. -/
def sw_axis_cont : RMethod Cls RM :=
  .node .SwAxisCont
    (sw_axis_cont_group)

/-- `_read_sw_value_cont`, reader.py 3162-3172. -/
def sw_value_cont : RMethod Cls RM :=
  .node .SwValueCont
    (sw_value_cont_group)

/-- `_read_mode_declaration`, reader.py 3193-3209. -/
def mode_declaration : RMethod Cls RM :=
  .node .ModeDeclaration
    (referrable ++ multi_language_referrable ++ identifiable ++ port_interface ++
    [child "VALUE" "value" (.conv .posInt)])

/-- `_read_mode_error_behavior`, reader.py 3211-3224. -/
def mode_error_behavior : RMethod Cls RM :=
  .node .ModeErrorBehavior
    ([child "DEFAULT-MODE-REF" "default_mode_ref" (.meth .mode_declaration_ref),
     child "ERROR-REACTION-POLICY" "error_reaction_policy" (.conv (.enum "ModeErrorReactionPolicy"))])

/-- `_read_mode_transition`, reader.py 3226-3238. -/
def mode_transition : RMethod Cls RM :=
  .node .ModeTransition
    (referrable ++ multi_language_referrable ++ identifiable ++ mode_transition_group)

/-- `_read_mode_declaration_group`, reader.py 3251-3264. -/
def mode_declaration_group : RMethod Cls RM :=
  .node .ModeDeclarationGroup
    (referrable ++ multi_language_referrable ++ identifiable ++
    mode_declaration_group_data)

/-- `_read_mode_declaration_group_prototype`, reader.py 3299-3314. -/
def mode_declaration_group_prototype : RMethod Cls RM :=
  .node .ModeDeclarationGroupPrototype
    (referrable ++ multi_language_referrable ++ identifiable ++
    mode_declaration_group_prototype_data)

/-- `_read_nv_data_interface`, reader.py 3342-3355. -/
def nv_data_interface : RMethod Cls RM :=
  .node .NvDataInterface
    (referrable ++ multi_language_referrable ++ identifiable ++ port_interface ++
    nv_data_interface_group)

/-- `_read_parameter_interface`, reader.py 3371-3384. -/
def parameter_interface : RMethod Cls RM :=
  .node .ParameterInterface
    (referrable ++ multi_language_referrable ++ identifiable ++ port_interface ++
    parameter_interface_group)

/-- `_read_sender_receiver_interface`, reader.py 3400-3413. -/
def sender_receiver_interface : RMethod Cls RM :=
  .node .SenderReceiverInterface
    (referrable ++ multi_language_referrable ++ identifiable ++ port_interface ++
    sender_receiver_interface_group)

/-- `_read_invalidation_policy`, reader.py 3438-3451. -/
def invalidation_policy : RMethod Cls RM :=
  .node .InvalidationPolicy
    ([child "DATA-ELEMENT-REF" "data_element_ref" (.meth .variable_data_prototype_ref),
     child "HANDLE-INVALID" "handle_invalid" (.conv (.enum "HandleInvalid"))])

/-- `_read_application_error`, reader.py 3453-3465. -/
def application_error : RMethod Cls RM :=
  .node .ApplicationError
    (referrable ++ multi_language_referrable ++ identifiable ++ application_error_group)

/-- `_read_client_server_operation`, reader.py 3475-3487. -/
def client_server_operation : RMethod Cls RM :=
  .node .ClientServerOperation
    (referrable ++ multi_language_referrable ++ identifiable ++
    client_server_operation_group)

/-- `_read_client_server_interface`, reader.py 3519-3532. -/
def client_server_interface : RMethod Cls RM :=
  .node .ClientServerInterface
    (referrable ++ multi_language_referrable ++ identifiable ++ port_interface ++
    client_server_interface_group)

/-- `_read_mode_switch_interface`, reader.py 3555-3570. -/
def mode_switch_interface : RMethod Cls RM :=
  .node .ModeSwitchInterface
    (referrable ++ multi_language_referrable ++ identifiable ++ port_interface ++
    [child "MODE-GROUP" "mode_group" (.meth .mode_declaration_group_prototype)])

/-- `_read_e2e_transformation_com_spec_props`, reader.py 3574-3586. -/
def e2e_transformation_com_spec_props : RMethod Cls RM :=
  .node .EndToEndTransformationComSpecProps
    (describable ++ e2e_transformation_com_spec_props_group)

/-- `_read_e2e_profile_compatibility_props`, reader.py 3644-3658. -/
def e2e_profile_compatibility_props : RMethod Cls RM :=
  .node .E2EProfileCompatibilityProps
    (referrable ++ multi_language_referrable ++ identifiable ++
    e2e_profile_compatibility_props_group)

/-- `_read_mode_switched_ack_request`, reader.py 3670-3681. -/
def mode_switched_ack_request : RMethod Cls RM :=
  .node .ModeSwitchedAckRequest
    ([child "TIMEOUT" "timeout" (.conv .castFloat)])

/-- `_read_mode_switch_sender_com_spec`, reader.py 3683-3703. -/
def mode_switch_sender_com_spec : RMethod Cls RM :=
  .node .ModeSwitchSenderComSpec
    ([child "ENHANCED-MODE-API" "enhanced_mode_api" (.conv .boolean),
     child "MODE-GROUP-REF" "mode_group_ref" (.meth .mode_declaration_group_prototype_ref),
     child "MODE-SWITCHED-ACK" "mode_switched_ack" (.meth .mode_switched_ack_request),
     child "QUEUE-LENGTH" "queue_length" (.conv .posInt)])

/-- `_read_transmission_acknowledgement_request`, reader.py 3705-3718. -/
def transmission_acknowledgement_request : RMethod Cls RM :=
  .node .TransmissionAcknowledgementRequest
    ([child "TIMEOUT" "timeout" (.conv .castFloat)])

/-- `_read_tranmsission_com_spec_props`, reader.py 3720-3739. -/
def tranmsission_com_spec_props : RMethod Cls RM :=
  .node .TransmissionComSpecProps
    ([child "DATA-UPDATE-PERIOD" "data_update_period" (.conv .castFloat),
     child "MINIMUM-SEND-INTERVAL" "minimum_send_interval" (.conv .castFloat),
     child "TRANSMISSION-MODE" "transmission_mode" (.conv (.enum "TransmissionMode"))])

/-- `_read_queued_sender_com_spec`, reader.py 3767-3778. -/
def queued_sender_com_spec : RMethod Cls RM :=
  .node .QueuedSenderComSpec
    (sender_com_spec_group)

/-- `_read_nonqueued_sender_com_spec`, reader.py 3780-3792. -/
def nonqueued_sender_com_spec : RMethod Cls RM :=
  .node .NonqueuedSenderComSpec
    (sender_com_spec_group ++ nonqueued_sender_com_spec_group)

/-- `_read_nv_provider_com_spec`, reader.py 3810-3821. -/
def nv_provider_com_spec : RMethod Cls RM :=
  .node .NvProvideComSpec
    (nv_provider_com_spec_group)

/-- `_read_parameter_provide_com_spec`, reader.py 3847-3868. -/
def parameter_provide_com_spec : RMethod Cls RM :=
  .node .ParameterProvideComSpec
    ([.one "INIT-VALUE" "init_value" .first valueSpecAlts (some .keyError) true,
     child "PARAMETER-REF" "parameter_ref" (.meth .parameter_data_prototype_ref)])

/-- `_read_server_com_spec`, reader.py 3870-3881. -/
def server_com_spec : RMethod Cls RM :=
  .node .ServerComSpec
    (server_com_spec_group)

/-- `_read_reception_com_spec_props`, reader.py 3902-3917. -/
def reception_com_spec_props : RMethod Cls RM :=
  .node .ReceptionComSpecProps
    (receiver_com_spec ++
    [child "DATA-UPDATE-PERIOD" "data_update_period" (.conv .castFloat),
     child "TIMEOUT" "timeout" (.conv .castFloat)])

/-- `_read_queued_receiver_com_spec`, reader.py 3964-3976. -/
def queued_receiver_com_spec : RMethod Cls RM :=
  .node .QueuedReceiverComSpec
    (receiver_com_spec ++
    [child "QUEUE-LENGTH" "queue_length" (.conv .posInt)])

/-- `_read_nonqueued_receiver_com_spec`, reader.py 3978-3989. -/
def nonqueued_receiver_com_spec : RMethod Cls RM :=
  .node .NonqueuedReceiverComSpec
    (receiver_com_spec ++ nonqueued_receiver_com_spec_group)

/-- `_read_nv_require_com_spec`, reader.py 4030-4049. -/
def nv_require_com_spec : RMethod Cls RM :=
  .node .NvRequireComSpec
    ([.one "INIT-VALUE" "init_value" .first valueSpecAlts (some .keyError) true,
     child "VARIABLE-REF" "variable_ref" (.meth .variable_data_prototype_ref)])

/-- `_read_parameter_require_com_spec`, reader.py 4051-4072. -/
def parameter_require_com_spec : RMethod Cls RM :=
  .node .ParameterRequireComSpec
    ([.one "INIT-VALUE" "init_value" .first valueSpecAlts (some .keyError) true,
     child "PARAMETER-REF" "parameter_ref" (.meth .parameter_data_prototype_ref)])

/-- `_read_mode_switch_receiver_com_spec`, reader.py 4074-4093. -/
def mode_switch_receiver_com_spec : RMethod Cls RM :=
  .node .ModeSwitchReceiverComSpec
    ([child "ENHANCED-MODE-API" "enhanced_mode_api" (.conv .boolean),
     child "MODE-GROUP-REF" "mode_group_ref" (.meth .mode_declaration_group_prototype_ref),
     child "SUPPORTS-ASYNCHRONOUS-MODE-SWITCH" "supports_async" (.conv .boolean)])

/-- `_read_client_com_spec`, reader.py 4095-4106. -/
def client_com_spec : RMethod Cls RM :=
  .node .ClientComSpec
    (client_com_spec_group)

/-- `_read_provide_port_prototype`, reader.py 4148-4160. -/
def provide_port_prototype : RMethod Cls RM :=
  .node .ProvidePortPrototype
    (referrable ++ multi_language_referrable ++ identifiable ++
    provide_port_prototype_group)

/-- `_read_require_port_prototype`, reader.py 4176-4188. -/
def require_port_prototype : RMethod Cls RM :=
  .node .RequirePortPrototype
    (referrable ++ multi_language_referrable ++ identifiable ++
    required_port_prototype_group)

/-- `_read_pr_port_prototype`, reader.py 4207-4219. -/
def pr_port_prototype : RMethod Cls RM :=
  .node .PRPortPrototype
    (referrable ++ multi_language_referrable ++ identifiable ++ pr_port_prototype_group)

/-- `_read_application_sw_component_type`, reader.py 4276-4291. -/
def application_sw_component_type : RMethod Cls RM :=
  .node .ApplicationSoftwareComponentType
    (referrable ++ multi_language_referrable ++ identifiable ++ sw_component_type ++
    atomic_sw_component_type)

/-- `_read_sw_component_prototype`, reader.py 4293-4308. -/
def sw_component_prototype : RMethod Cls RM :=
  .node .SwComponentPrototype
    (referrable ++ multi_language_referrable ++ identifiable ++ sw_component_type ++
    [child "TYPE-TREF" "type_ref" (.meth .sw_component_type_ref)])

/-- `_read_port_in_composition_type_instance_ref`, reader.py 4310-4334. -/
def port_in_composition_type_instance_ref (tag : String) : RMethod Cls RM :=
  match tag with
  | "PROVIDER-IREF" =>
    .node .ProviderPortInstanceRef
      ([child "CONTEXT-COMPONENT-REF" "component_ref" (.meth .sw_component_prototype_ref),
       child "TARGET-P-PORT-REF" "port_ref" (.meth .port_prototype_ref)])
  | "P-PORT-IN-COMPOSITION-INSTANCE-REF" =>
    .node .InnerProvidedPortInstanceRef
      ([child "CONTEXT-COMPONENT-REF" "component_ref" (.meth .sw_component_prototype_ref),
       child "TARGET-P-PORT-REF" "port_ref" (.meth .port_prototype_ref)])
  | "REQUESTER-IREF" =>
    .node .RequesterPortInstanceRef
      ([child "CONTEXT-COMPONENT-REF" "component_ref" (.meth .sw_component_prototype_ref),
       child "TARGET-R-PORT-REF" "port_ref" (.meth .port_prototype_ref)])
  | "R-PORT-IN-COMPOSITION-INSTANCE-REF" =>
    .node .InnerRequiredPortInstanceRef
      ([child "CONTEXT-COMPONENT-REF" "component_ref" (.meth .sw_component_prototype_ref),
       child "TARGET-R-PORT-REF" "port_ref" (.meth .port_prototype_ref)])
  | _ => .bad .valueError

/-- `_read_assembly_sw_connector`, reader.py 4336-4354. -/
def assembly_sw_connector : RMethod Cls RM :=
  .node .AssemblySwConnector
    (referrable ++ multi_language_referrable ++ identifiable ++ sw_connector ++
    [child "PROVIDER-IREF" "provide_port" (.meth .port_in_composition_type_instance_ref),
     child "REQUESTER-IREF" "require_port" (.meth .port_in_composition_type_instance_ref)])

/-- `_read_delegation_sw_connector`, reader.py 4363-4384. -/
def delegation_sw_connector : RMethod Cls RM :=
  .node .DelegationSwConnector
    (referrable ++ multi_language_referrable ++ identifiable ++ sw_connector ++
    [.one "INNER-PORT-IREF" "inner_port" .first [(some "P-PORT-IN-COMPOSITION-INSTANCE-REF", .meth .port_in_composition_type_instance_ref),
      (some "R-PORT-IN-COMPOSITION-INSTANCE-REF", .meth .port_in_composition_type_instance_ref)] none false,
     child "OUTER-PORT-REF" "outer_port" (.meth .port_prototype_ref)])

/-- `_read_pass_through_sw_connector`, reader.py 4386-4405. -/
def pass_through_sw_connector : RMethod Cls RM :=
  .node .PassThroughSwConnector
    (referrable ++ multi_language_referrable ++ identifiable ++ sw_connector ++
    [child "PROVIDED-OUTER-PORT-REF" "provide_port" (.meth .port_prototype_ref),
     child "REQUIRED-OUTER-PORT-REF" "require_port" (.meth .port_prototype_ref)])

/-- `_read_composition_sw_component_type`, reader.py 4407-4422. -/
def composition_sw_component_type : RMethod Cls RM :=
  .node .CompositionSwComponentType
    (referrable ++ multi_language_referrable ++ identifiable ++ sw_component_type ++
    composition_sw_component_type_group)

/-- `_read_swc_implementation`, reader.py 4449-4464. -/
def swc_implementation : RMethod Cls RM :=
  .node .SwcImplementation
    (referrable ++ multi_language_referrable ++ identifiable ++ implementation ++
    swc_implementation_group)

/-- `_read_p_mode_group_in_atomic_swc_instance_ref`, reader.py 4478-4495. -/
def p_mode_group_in_atomic_swc_instance_ref : RMethod Cls RM :=
  .node .PModeGroupInAtomicSwcInstanceRef
    ([child "CONTEXT-P-PORT-REF" "context_port" (.meth .abstract_provided_port_prototype_ref),
     child "TARGET-MODE-GROUP-REF" "target_mode_group" (.meth .mode_declaration_group_prototype_ref)])

/-- `_read_p_operation_in_atomic_swc_instance_ref`, reader.py 4497-4513. -/
def p_operation_in_atomic_swc_instance_ref : RMethod Cls RM :=
  .node .POperationInAtomicSwcInstanceRef
    ([child "CONTEXT-P-PORT-REF" "context_port" (.meth .abstract_provided_port_prototype_ref),
     child "TARGET-PROVIDED-OPERATION-REF" "target_provided_operation" (.meth .client_server_operation_ref)])

/-- `_read_p_trigger_in_atomic_swc_instance_ref`, reader.py 4515-4532. -/
def p_trigger_in_atomic_swc_instance_ref : RMethod Cls RM :=
  .node .PTriggerInAtomicSwcTypeInstanceRef
    ([child "CONTEXT-P-PORT-REF" "context_port" (.meth .abstract_provided_port_prototype_ref),
     child "TARGET-TRIGGER-REF" "target_trigger" (.meth .trigger_ref)])

/-- `_read_r_mode_in_atomic_swc_instance_ref`, reader.py 4534-4554. -/
def r_mode_in_atomic_swc_instance_ref : RMethod Cls RM :=
  .node .RModeInAtomicSwcInstanceRef
    ([child "CONTEXT-PORT-REF" "context_port" (.meth .abstract_required_port_prototype_ref),
     child "CONTEXT-MODE-DECLARATION-GROUP-PROTOTYPE-REF" "context_mode_declaration_group_prototype" (.meth .mode_declaration_group_prototype_ref),
     child "TARGET-MODE-DECLARATION-REF" "target_mode_declaration" (.meth .mode_declaration_ref)])

/-- `_read_r_mode_group_in_atomic_swc_instance_ref`, reader.py 4556-4572. -/
def r_mode_group_in_atomic_swc_instance_ref : RMethod Cls RM :=
  .node .RModeGroupInAtomicSwcInstanceRef
    ([child "CONTEXT-R-PORT-REF" "context_port" (.meth .abstract_required_port_prototype_ref),
     child "TARGET-MODE-GROUP-REF" "target_mode_group" (.meth .mode_declaration_group_prototype_ref)])

/-- `_read_r_operation_in_atomic_swc_instance_ref`, reader.py 4574-4590. -/
def r_operation_in_atomic_swc_instance_ref : RMethod Cls RM :=
  .node .ROperationInAtomicSwcInstanceRef
    ([child "CONTEXT-R-PORT-REF" "context_port" (.meth .abstract_required_port_prototype_ref),
     child "TARGET-REQUIRED-OPERATION-REF" "target_required_operation" (.meth .client_server_operation_ref)])

/-- `_read_r_variable_in_atomic_swc_instance_ref`, reader.py 4592-4608. -/
def r_variable_in_atomic_swc_instance_ref : RMethod Cls RM :=
  .node .RVariableInAtomicSwcInstanceRef
    ([child "CONTEXT-R-PORT-REF" "context_port" (.meth .abstract_required_port_prototype_ref),
     child "TARGET-DATA-ELEMENT-REF" "target_data_element" (.meth .variable_data_prototype_ref)])

/-- `_read_r_trigger_in_atomic_swc_instance_ref`, reader.py 4610-4626. -/
def r_trigger_in_atomic_swc_instance_ref : RMethod Cls RM :=
  .node .RTriggerInAtomicSwcInstanceRef
    ([child "CONTEXT-R-PORT-REF" "context_port" (.meth .abstract_required_port_prototype_ref),
     child "TARGET-TRIGGER-REF" "target_trigger" (.meth .trigger_ref)])

/-- `_read_variable_in_impl_data_instance_ref`, reader.py 4630-4641. -/
def variable_in_impl_data_instance_ref : RMethod Cls RM :=
  .node .ArVariableInImplementationDataInstanceRef
    (variable_in_impl_data_instance_ref_group)

/-- `_read_variable_in_atomic_swc_type_instance_ref`, reader.py 4663-4690. -/
def variable_in_atomic_swc_type_instance_ref : RMethod Cls RM :=
  .node .VariableInAtomicSWCTypeInstanceRef
    ([child "PORT-PROTOTYPE-REF" "port_prototype_ref" (.meth .port_prototype_ref),
     child "ROOT-VARIABLE-DATA-PROTOTYPE-REF" "root_variable_data_prototype_ref" (.meth .variable_data_prototype_ref),
     .flat "context_data_prototype_refs"
      [(some "CONTEXT-DATA-PROTOTYPE-REF", .meth .appl_composite_element_data_proto_ref)] none,
     child "TARGET-DATA-PROTOTYPE-REF" "target_data_prototype_ref" (.meth .data_prototype_ref)])

/-- `_read_variable_access`, reader.py 4692-4704. -/
def variable_access : RMethod Cls RM :=
  .node .VariableAccess
    (referrable ++ multi_language_referrable ++ identifiable ++ variable_access_group)

/-- `_read_autosar_variable_ref`, reader.py 4717-4728. -/
def autosar_variable_ref : RMethod Cls RM :=
  .node .AutosarVariableRef
    (autosar_variable_ref_group)

/-- `_read_executable_entity_activation_reason`, reader.py 4745-4760. -/
def executable_entity_activation_reason : RMethod Cls RM :=
  .node .ExecutableEntityActivationReason
    (referrable ++ implementation_props ++
    [child "BIT-POSITION" "bit_position" (.conv .posInt)])

/-- `_read_exclusive_area_ref_conditional`, reader.py 4762-4776. -/
def exclusive_area_ref_conditional : RMethod Cls RM :=
  .node .ExclusiveAreaRefConditional
    ([child "EXCLUSIVE-AREA-REF" "exclusive_area" (.meth .exclusive_area_ref)])

/-- `_read_runnable_entity_argument`, reader.py 4778-4789. -/
def runnable_entity_argument : RMethod Cls RM :=
  .node .RunnableEntityArgument
    ([child "SYMBOL" "symbol" (.conv .text)])

/-- `_read_async_server_call_point`, reader.py 4811-4824. -/
def async_server_call_point : RMethod Cls RM :=
  .node .AsynchronousServerCallPoint
    (referrable ++ multi_language_referrable ++ identifiable ++ abstract_access_point ++
    server_call_point)

/-- `_read_sync_server_call_point`, reader.py 4826-4842. -/
def sync_server_call_point : RMethod Cls RM :=
  .node .SynchronousServerCallPoint
    (referrable ++ multi_language_referrable ++ identifiable ++ abstract_access_point ++
    server_call_point ++
    [child "CALLED-FROM-WITHIN-EXCLUSIVE-AREA-REF" "called_from_within_exclusive_area" (.meth .exclusive_area_nesting_order_ref)])

/-- `_read_async_server_call_result_point`, reader.py 4844-4859. -/
def async_server_call_result_point : RMethod Cls RM :=
  .node .AsynchronousServerCallResultPoint
    (referrable ++ multi_language_referrable ++ identifiable ++ abstract_access_point ++
    async_server_call_result_point_group)

/-- `_read_external_triggering_point_ident`, reader.py 4869-4882. -/
def external_triggering_point_ident : RMethod Cls RM :=
  .node .ExternalTriggeringPointIdent
    (referrable ++ multi_language_referrable ++ identifiable ++ abstract_access_point)

/-- `_read_external_triggering_point`, reader.py 4884-4899. -/
def external_triggering_point : RMethod Cls RM :=
  .node .ExternalTriggeringPoint
    ([child "IDENT" "ident" (.meth .external_triggering_point_ident),
     child "TRIGGER-IREF" "trigger" (.meth .p_trigger_in_atomic_swc_instance_ref)])

/-- `_read_internal_triggering_point`, reader.py 4901-4917. -/
def internal_triggering_point : RMethod Cls RM :=
  .node .InternalTriggeringPoint
    (referrable ++ multi_language_referrable ++ identifiable ++ abstract_access_point ++
    [child "SW-IMPL-POLICY" "sw_impl_policy" (.conv (.enum "SwImplPolicy"))])

/-- `_read_mode_access_point_ident`, reader.py 4919-4933. -/
def mode_access_point_ident : RMethod Cls RM :=
  .node .ModeAccessPointIdent
    (referrable ++ multi_language_referrable ++ identifiable ++ abstract_access_point ++
    async_server_call_result_point_group)

/-- `_read_mode_access_point`, reader.py 4935-4954. -/
def mode_access_point : RMethod Cls RM :=
  .node .ModeAccessPoint
    ([child "IDENT" "ident" (.meth .mode_access_point_ident),
     .one "MODE-GROUP-IREF" "mode_group" .first [(some "P-MODE-GROUP-IN-ATOMIC-SWC-INSTANCE-REF", .meth .p_mode_group_in_atomic_swc_instance_ref),
      (some "R-MODE-GROUP-IN-ATOMIC-SWC-INSTANCE-REF", .meth .r_mode_group_in_atomic_swc_instance_ref)] none false])

/-- `_read_mode_switch_point`, reader.py 4956-4972. -/
def mode_switch_point : RMethod Cls RM :=
  .node .ModeSwitchPoint
    (referrable ++ multi_language_referrable ++ identifiable ++ abstract_access_point ++
    [child "MODE-GROUP-IREF" "mode_group" (.meth .p_mode_group_in_atomic_swc_instance_ref)])

/-- `_read_parameter_in_atomic_swc_type_instance_ref`, reader.py 4974-4998. -/
def parameter_in_atomic_swc_type_instance_ref : RMethod Cls RM :=
  .node .ParameterInAtomicSwcTypeInstanceRef
    ([child "PORT-PROTOTYPE-REF" "port_prototype" (.meth .port_prototype_ref),
     child "ROOT-PARAMETER-DATA-PROTOTYPE-REF" "root_parameter_data_prototype" (.meth .data_prototype_ref),
     child "CONTEXT-DATA-PROTOTYPE-REF" "context_data_prototype" (.meth .appl_composite_element_data_proto_ref),
     child "TARGET-DATA-PROTOTYPE-REF" "target_data_prototype" (.meth .data_prototype_ref)])

/-- `_read_autosar_parameter_ref`, reader.py 5000-5014. -/
def autosar_parameter_ref : RMethod Cls RM :=
  .node .AutosarParameterRef
    ([child "AUTOSAR-PARAMETER-IREF" "autosar_parameter" (.meth .parameter_in_atomic_swc_type_instance_ref),
     child "LOCAL-PARAMETER-REF" "local_parameter" (.meth .data_prototype_ref)])

/-- `_read_parameter_access`, reader.py 5016-5029. -/
def parameter_access : RMethod Cls RM :=
  .node .ParameterAccess
    (referrable ++ multi_language_referrable ++ identifiable ++ abstract_access_point ++
    parameter_access_group)

/-- `_read_wait_point`, reader.py 5043-5055. -/
def wait_point : RMethod Cls RM :=
  .node .WaitPoint
    (referrable ++ multi_language_referrable ++ identifiable ++ wait_point_group)

/-- `_read_runnable_entity`, reader.py 5128-5141. -/
def runnable_entity : RMethod Cls RM :=
  .node .RunnableEntity
    (referrable ++ multi_language_referrable ++ identifiable ++ executable_entity ++
    runnable_entity_group)

/-- `_read_async_server_call_returns_event`, reader.py 5269-5286. -/
def async_server_call_returns_event : RMethod Cls RM :=
  .node .AsynchronousServerCallReturnsEvent
    (referrable ++ multi_language_referrable ++ identifiable ++ rte_event_group ++
    [child "EVENT-SOURCE-REF" "event_source" (.meth .async_server_call_result_point_ref)])

/-- `_read_background_event`, reader.py 5288-5302. -/
def background_event : RMethod Cls RM :=
  .node .BackgroundEvent
    (referrable ++ multi_language_referrable ++ identifiable ++ rte_event_group)

/-- `_read_data_receive_error_event`, reader.py 5304-5321. -/
def data_receive_error_event : RMethod Cls RM :=
  .node .DataReceiveErrorEvent
    (referrable ++ multi_language_referrable ++ identifiable ++ rte_event_group ++
    [child "DATA-IREF" "data" (.meth .r_variable_in_atomic_swc_instance_ref)])

/-- `_read_data_received_event`, reader.py 5323-5340. -/
def data_received_event : RMethod Cls RM :=
  .node .DataReceivedEvent
    (referrable ++ multi_language_referrable ++ identifiable ++ rte_event_group ++
    [child "DATA-IREF" "data" (.meth .r_variable_in_atomic_swc_instance_ref)])

/-- `_read_data_send_completed_event`, reader.py 5342-5359. -/
def data_send_completed_event : RMethod Cls RM :=
  .node .DataSendCompletedEvent
    (referrable ++ multi_language_referrable ++ identifiable ++ rte_event_group ++
    [child "EVENT-SOURCE-REF" "event_source" (.meth .variable_access_ref)])

/-- `_read_data_write_completed_event`, reader.py 5361-5378. -/
def data_write_completed_event : RMethod Cls RM :=
  .node .DataWriteCompletedEvent
    (referrable ++ multi_language_referrable ++ identifiable ++ rte_event_group ++
    [child "EVENT-SOURCE-REF" "event_source" (.meth .variable_access_ref)])

/-- `_read_external_trigger_occured_event`, reader.py 5380-5397. -/
def external_trigger_occured_event : RMethod Cls RM :=
  .node .ExternalTriggerOccurredEvent
    (referrable ++ multi_language_referrable ++ identifiable ++ rte_event_group ++
    [child "TRIGGER-IREF" "trigger" (.meth .r_trigger_in_atomic_swc_instance_ref)])

/-- `_read_init_event`, reader.py 5399-5413. -/
def init_event : RMethod Cls RM :=
  .node .InitEvent
    (referrable ++ multi_language_referrable ++ identifiable ++ rte_event_group)

/-- `_read_internal_trigger_occured_event`, reader.py 5415-5432. -/
def internal_trigger_occured_event : RMethod Cls RM :=
  .node .InternalTriggerOccurredEvent
    (referrable ++ multi_language_referrable ++ identifiable ++ rte_event_group ++
    [child "EVENT-SOURCE-REF" "event_source" (.meth .internal_triggering_point_ref)])

/-- `_read_mode_switched_ack_event`, reader.py 5434-5451. -/
def mode_switched_ack_event : RMethod Cls RM :=
  .node .ModeSwitchedAckEvent
    (referrable ++ multi_language_referrable ++ identifiable ++ rte_event_group ++
    [child "EVENT-SOURCE-REF" "event_source" (.meth .mode_switch_point_ref)])

/-- `_read_operation_invoked_event`, reader.py 5453-5470. -/
def operation_invoked_event : RMethod Cls RM :=
  .node .OperationInvokedEvent
    (referrable ++ multi_language_referrable ++ identifiable ++ rte_event_group ++
    [child "OPERATION-IREF" "operation" (.meth .p_operation_in_atomic_swc_instance_ref)])

/-- `_read_swc_mode_manager_error_event`, reader.py 5472-5489. -/
def swc_mode_manager_error_event : RMethod Cls RM :=
  .node .SwcModeManagerErrorEvent
    (referrable ++ multi_language_referrable ++ identifiable ++ rte_event_group ++
    [child "MODE-GROUP-IREF" "mode_group" (.meth .p_mode_group_in_atomic_swc_instance_ref)])

/-- `_read_swc_mode_switch_event`, reader.py 5491-5506. -/
def swc_mode_switch_event : RMethod Cls RM :=
  .node .SwcModeSwitchEvent
    (referrable ++ multi_language_referrable ++ identifiable ++ rte_event_group ++
    swc_mode_switch_event_group)

/-- `_read_timing_event`, reader.py 5529-5549. -/
def timing_event : RMethod Cls RM :=
  .node .TimingEvent
    (referrable ++ multi_language_referrable ++ identifiable ++ rte_event_group ++
    [child "OFFSET" "offset" (.conv .castFloat),
     child "PERIOD" "period" (.conv .castFloat)])

/-- `_read_transformer_hard_error_event`, reader.py 5551-5566. -/
def transformer_hard_error_event : RMethod Cls RM :=
  .node .TransformerHardErrorEvent
    (referrable ++ multi_language_referrable ++ identifiable ++ rte_event_group ++
    transformer_hard_error_event_group)

/-- `_read_port_defined_argument_value`, reader.py 5582-5603. -/
def port_defined_argument_value : RMethod Cls RM :=
  .node .PortDefinedArgumentValue
    ([.one "VALUE" "value" .first valueSpecAlts (some .keyError) true,
     child "VALUE-TYPE-TREF" "value_type" (.meth .impl_data_type_ref)])

/-- `_read_communication_buffer_locking`, reader.py 5605-5618. -/
def communication_buffer_locking : RMethod Cls RM :=
  .node .CommunicationBufferLocking
    ([child "SUPPORT-BUFFER-LOCKING" "support_buffer_locking" (.conv (.enum "SupportBufferLocking"))])

/-- `_read_port_api_option`, reader.py 5620-5631. -/
def port_api_option : RMethod Cls RM :=
  .node .PortApiOption
    (port_api_option_group)

/-- `_read_exclusive_area`, reader.py 5670-5680. -/
def exclusive_area : RMethod Cls RM :=
  .node .ExclusiveArea
    (referrable ++ multi_language_referrable ++ identifiable)

/-- `_read_swc_internal_behavior`, reader.py 5682-5695. -/
def swc_internal_behavior : RMethod Cls RM :=
  .node .SwcInternalBehavior
    (referrable ++ multi_language_referrable ++ identifiable ++ internal_behavior_group ++
    swc_internal_behavior_group)

end Verif.Codec.Reader
