import Verif.Codec.Lang
import Verif.Codec.Names
/-
The methods of the element writer (src/autosar/xml/writer.py), one definition per method.  The
names are those of the code without the prefix `_write_`; all line numbers are of
src/autosar/xml/writer.py.

Simplifications: comments, `admin_data` and the deprecated schema versions below 50 are left out;
the helper methods that only select another method (`_write_value_specification_element`
2623-2632, `_write_provided_com_spec` 3566-3575, `_write_required_com_spec` 3577-3586,
`_write_port_prototype` 3670-3681, `_write_rte_event_element` 4969-4978) are inlined as the
branches they select from.
-/
namespace Verif.Codec.Writer

/-- `if elem.field is not None: write` -/
def opt (field : String) (a : WAtom WM) : WItem Cls WM := .one .notNone field none [(.any, a)] none

/-- `if elem.field: write` -/
def optT (field : String) (a : WAtom WM) : WItem Cls WM := .one .truthy field none [(.any, a)] none

/-- `write`, without a test -/
def always (field : String) (a : WAtom WM) : WItem Cls WM := .one .always field none [(.any, a)] none

/-- `if elem.field is not None: add_child(tag); write; leave_child()` -/
def optIn (field tag : String) (a : WAtom WM) : WItem Cls WM :=
  .one .notNone field (some tag) [(.any, a)] none

/-- `if elem.field: add_child(tag); for x in elem.field: write; leave_child()` -/
def list (field tag : String) (a : WAtom WM) : WItem Cls WM :=
  .many .truthy field (some tag) [(.any, a)] none

/-- `_collect_identifiable_attributes`, writer.py 464-469. -/
def uuidAttr : List WAttr := [⟨"UUID", "uuid", false, false⟩]

/-- Methods for value specifications, by class name; writer.py 230-238. -/
def valueSpecAlts : List (Test Cls × WAtom WM) :=
  [(.exact .TextValueSpecification, .meth .text_value_specification none),
   (.exact .NumericalValueSpecification, .meth .numerical_value_specification none),
   (.exact .NotAvailableValueSpecification, .meth .not_available_value_specification none),
   (.exact .ArrayValueSpecification, .meth .array_value_specification none),
   (.exact .RecordValueSpecification, .meth .record_value_specification none),
   (.exact .ApplicationValueSpecification, .meth .application_value_specification none),
   (.exact .ConstantReference, .meth .constant_reference none)]

/-- Methods for communication specifications of provided ports, by class name; writer.py 240-247. -/
def providedComSpecAlts : List (Test Cls × WAtom WM) :=
  [(.exact .ModeSwitchSenderComSpec, .meth .mode_switch_sender_com_spec none),
   (.exact .QueuedSenderComSpec, .meth .queued_sender_com_spec none),
   (.exact .NonqueuedSenderComSpec, .meth .non_queued_sender_com_spec none),
   (.exact .NvProvideComSpec, .meth .nv_provide_com_spec none),
   (.exact .ParameterProvideComSpec, .meth .parameter_provide_com_spec none),
   (.exact .ServerComSpec, .meth .server_com_spec none)]

/-- Methods for communication specifications of required ports, by class name; writer.py 248-255. -/
def requiredComSpecAlts : List (Test Cls × WAtom WM) :=
  [(.exact .QueuedReceiverComSpec, .meth .queued_receiver_com_spec none),
   (.exact .NonqueuedReceiverComSpec, .meth .nonqueued_receiver_com_spec none),
   (.exact .NvRequireComSpec, .meth .nv_require_com_spec none),
   (.exact .ParameterRequireComSpec, .meth .parameter_require_com_spec none),
   (.exact .ModeSwitchReceiverComSpec, .meth .mode_switch_receiver_com_spec none),
   (.exact .ClientComSpec, .meth .client_com_spec none)]

/-- Methods for events, by class name; writer.py 256-272. -/
def rteEventAlts : List (Test Cls × WAtom WM) :=
  [(.exact .AsynchronousServerCallReturnsEvent, .meth .async_server_call_returns_event none),
   (.exact .BackgroundEvent, .meth .background_event none),
   (.exact .DataReceiveErrorEvent, .meth .data_receive_error_event none),
   (.exact .DataReceivedEvent, .meth .data_received_event none),
   (.exact .DataSendCompletedEvent, .meth .data_send_completed_event none),
   (.exact .DataWriteCompletedEvent, .meth .data_write_completed_event none),
   (.exact .ExternalTriggerOccurredEvent, .meth .external_trigger_occured_event none),
   (.exact .InitEvent, .meth .init_event none),
   (.exact .InternalTriggerOccurredEvent, .meth .internal_trigger_occured_event none),
   (.exact .ModeSwitchedAckEvent, .meth .mode_switched_ack_event none),
   (.exact .OperationInvokedEvent, .meth .operation_invoked_event none),
   (.exact .SwcModeManagerErrorEvent, .meth .swc_mode_manager_error_event none),
   (.exact .SwcModeSwitchEvent, .meth .swc_mode_switch_event none),
   (.exact .TimingEvent, .meth .timing_event none),
   (.exact .TransformerHardErrorEvent, .meth .transformer_hard_error_event none)]

/-! ### Groups of statements shared by several methods -/

/-- `_write_referrable`, writer.py 449-454. -/
def referrable : List (WItem Cls WM) :=
  [always "name" (.text "SHORT-NAME" .plain)]

/-- `_write_multilanguage_referrable`, writer.py 456-462. -/
def multilanguage_referrable : List (WItem Cls WM) :=
  [opt "long_name" (.meth .multi_language_long_name (some "LONG-NAME"))]

/-- `_write_identifiable`, writer.py 471-485. -/
def identifiable : List (WItem Cls WM) :=
  [optT "desc" (.meth .multi_language_overview_paragraph (some "DESC")),
   optT "category" (.text "CATEGORY" .plain),
   optT "introduction" (.meth .documentation_block (some "INTRODUCTION")),
   .each "annotations" "ANNOTATIONS" [(.any, .meth .annotation none)] none]

/-- `_write_general_annotation`, writer.py 907-916. -/
def general_annotation : List (WItem Cls WM) :=
  [opt "label" (.meth .multi_language_long_name (some "LABEL")),
   opt "origin" (.text "ANNOTATION-ORIGIN" .str),
   opt "text" (.meth .documentation_block (some "ANNOTATION-TEXT"))]

/-- `_write_describable`, writer.py 937-949. -/
def describable : List (WItem Cls WM) :=
  [opt "desc" (.meth .multi_language_overview_paragraph (some "DESC")),
   opt "category" (.text "CATEGORY" .plain),
   opt "introduction" (.meth .documentation_block (some "INTRODUCTION"))]

/-- `_write_compu_method_group`, writer.py 969-980. -/
def compu_method_group : List (WItem Cls WM) :=
  [opt "display_format" (.text "DISPLAY-FORMAT" .str),
   opt "unit_ref" (.meth .unit_ref none),
   opt "int_to_phys" (.meth .computation (some "COMPU-INTERNAL-TO-PHYS")),
   opt "phys_to_int" (.meth .computation (some "COMPU-PHYS-TO-INTERNAL"))]

/-- `_write_data_constraint_group`, writer.py 1119-1128. -/
def data_constraint_group : List (WItem Cls WM) :=
  [list "rules" "DATA-CONSTR-RULES" (.meth .data_constraint_rule none)]

/-- `_write_constraint_base`, writer.py 1182-1202. -/
def constraint_base : List (WItem Cls WM) :=
  [opt "lower_limit" (.limit "LOWER-LIMIT"),
   opt "upper_limit" (.limit "UPPER-LIMIT"),
   list "scale_constrs" "SCALE-CONSTRS" (.meth .scale_constraint none),
   opt "max_gradient" (.text "MAX-GRADIENT" .number),
   opt "max_diff" (.text "MAX-DIFF" .number),
   opt "monotony" (.text "MONOTONY" .enum)]

/-- `_write_unit_group`, writer.py 1247-1255. -/
def unit_group : List (WItem Cls WM) :=
  [opt "display_name" (.meth .single_language_unit_names (some "DISPLAY-NAME")),
   opt "factor" (.text "FACTOR-SI-TO-UNIT" .float),
   opt "offset" (.text "OFFSET-SI-TO-UNIT" .float),
   opt "physical_dimension_ref" (.meth .physical_dimension_ref none)]

/-- `_write_data_filter_group`, writer.py 1272-1289. -/
def data_filter_group : List (WItem Cls WM) :=
  [opt "data_filter_type" (.text "DATA-FILTER-TYPE" .enum),
   opt "mask" (.text "MASK" .str),
   opt "max_val" (.text "MAX" .str),
   opt "min_val" (.text "MIN" .str),
   opt "offset" (.text "OFFSET" .str),
   opt "period" (.text "PERIOD" .str),
   opt "x" (.text "X" .str)]

/-- `_write_engineering_object`, writer.py 1291-1298. -/
def engineering_object : List (WItem Cls WM) :=
  [opt "label" (.text "SHORT-LABEL" .str),
   opt "category" (.text "CATEGORY" .str)]

/-- `_write_implementtion`, writer.py 1333-1342. -/
def implementtion : List (WItem Cls WM) :=
  [list "code_descriptors" "CODE-DESCRIPTORS" (.meth .code none)]

/-- `_write_sw_addr_method_group`, writer.py 1375-1386. -/
def sw_addr_method_group : List (WItem Cls WM) :=
  []

/-- `_write_base_type`, writer.py 1404-1421. -/
def base_type : List (WItem Cls WM) :=
  [opt "size" (.text "BASE-TYPE-SIZE" .str),
   opt "max_size" (.text "MAX-BASE-TYPE-SIZE" .str),
   opt "encoding" (.text "BASE-TYPE-ENCODING" .str),
   opt "alignment" (.text "MEM-ALIGNMENT" .str),
   opt "byte_order" (.text "BYTE-ORDER" .enum),
   opt "native_declaration" (.text "NATIVE-DECLARATION" .str)]

/-- `_write_sw_data_def_props_content`, writer.py 1456-1505. -/
def sw_data_def_props_content : List (WItem Cls WM) :=
  [opt "display_presentation" (.text "DISPLAY-PRESENTATION" .enum),
   opt "step_size" (.text "STEP-SIZE" .float),
   .each "annotations" "ANNOTATIONS" [(.any, .meth .annotation none)] none,
   opt "sw_addr_method_ref" (.meth .sw_addr_method_ref none),
   opt "alignment" (.text "SW-ALIGNMENT" .str),
   opt "base_type_ref" (.meth .sw_base_type_ref none),
   opt "bit_representation" (.meth .sw_bit_represenation none),
   opt "calibration_access" (.text "SW-CALIBRATION-ACCESS" .enum),
   opt "text_props" (.meth .sw_text_props none),
   opt "compu_method_ref" (.meth .compu_method_ref none),
   opt "display_format" (.text "DISPLAY-FORMAT" .plain),
   opt "data_constraint_ref" (.meth .data_constraint_ref none),
   opt "impl_data_type_ref" (.meth .impl_data_type_ref (some "IMPLEMENTATION-DATA-TYPE-REF")),
   opt "impl_policy" (.text "SW-IMPL-POLICY" .enum),
   opt "additional_native_type_qualifier" (.text "ADDITIONAL-NATIVE-TYPE-QUALIFIER" .str),
   opt "intended_resolution" (.text "SW-INTENDED-RESOLUTION" .number),
   opt "interpolation_method" (.text "SW-INTERPOLATION-METHOD" .str),
   opt "is_virtual" (.text "SW-IS-VIRTUAL" .boolean),
   opt "ptr_target_props" (.meth .sw_pointer_target_props none),
   opt "unit_ref" (.meth .unit_ref none)]

/-- `_write_implementation_props`, writer.py 1576-1582. -/
def implementation_props : List (WItem Cls WM) :=
  [opt "symbol" (.text "SYMBOL" .str)]

/-- `__write_implementation_data_type_element_group`, writer.py 1598-1619. -/
def implementation_data_type_element_group : List (WItem Cls WM) :=
  [opt "array_impl_policy" (.text "ARRAY-IMPL-POLICY" .enum),
   opt "array_size" (.text "ARRAY-SIZE" .str),
   opt "array_size_handling" (.text "ARRAY-SIZE-HANDLING" .enum),
   opt "array_size_semantics" (.text "ARRAY-SIZE-SEMANTICS" .enum),
   opt "is_optional" (.text "IS-OPTIONAL" .boolean),
   list "sub_elements" "SUB-ELEMENTS" (.meth .implementation_data_type_element none),
   opt "sw_data_def_props" (.meth .sw_data_def_props (some "SW-DATA-DEF-PROPS"))]

/-- `_write_implementation_data_type_group`, writer.py 1636-1654. -/
def implementation_data_type_group : List (WItem Cls WM) :=
  [opt "dynamic_array_size_profile" (.text "DYNAMIC-ARRAY-SIZE-PROFILE" .str),
   opt "is_struct_with_optional_element" (.text "IS-STRUCT-WITH-OPTIONAL-ELEMENT" .boolean),
   list "sub_elements" "SUB-ELEMENTS" (.meth .implementation_data_type_element none),
   opt "symbol_props" (.meth .symbol_props (some "SYMBOL-PROPS")),
   opt "type_emitter" (.text "TYPE-EMITTER" .str)]

/-- `_write_autosar_data_type`, writer.py 1656-1662. -/
def autosar_data_type : List (WItem Cls WM) :=
  [opt "sw_data_def_props" (.meth .sw_data_def_props (some "SW-DATA-DEF-PROPS"))]

/-- `_write_data_prototype`, writer.py 1664-1670. -/
def data_prototype : List (WItem Cls WM) :=
  [opt "sw_data_def_props" (.meth .sw_data_def_props (some "SW-DATA-DEF-PROPS"))]

/-- `_write_application_composite_element_data_prototype`, writer.py 1686-1695. -/
def application_composite_element_data_prototype : List (WItem Cls WM) :=
  [opt "type_ref" (.meth .application_data_type_ref (some "TYPE-TREF"))]

/-- `_write_application_array_element_group`, writer.py 1713-1725. -/
def application_array_element_group : List (WItem Cls WM) :=
  [opt "array_size_handling" (.text "ARRAY-SIZE-HANDLING" .enum),
   opt "array_size_semantics" (.text "ARRAY-SIZE-SEMANTICS" .enum),
   opt "index_data_type_ref" (.meth .index_data_type_ref none),
   opt "max_number_of_elements" (.text "MAX-NUMBER-OF-ELEMENTS" .str)]

/-- `_write_application_record_element_group`, writer.py 1743-1749. -/
def application_record_element_group : List (WItem Cls WM) :=
  [opt "is_optional" (.text "IS-OPTIONAL" .boolean)]

/-- `_write_application_array_data_type_group`, writer.py 1766-1774. -/
def application_array_data_type_group : List (WItem Cls WM) :=
  [opt "dynamic_array_size_profile" (.text "DYNAMIC-ARRAY-SIZE-PROFILE" .str),
   opt "element" (.meth .application_array_element none)]

/-- `_write_application_record_data_type_group`, writer.py 1791-1800. -/
def application_record_data_type_group : List (WItem Cls WM) :=
  [list "elements" "ELEMENTS" (.meth .application_record_element none)]

/-- `_write_value_list_group`, writer.py 1852-1859. -/
def value_list_group : List (WItem Cls WM) :=
  [.many .always "values" none
      [(.any, .text "V" .number)] none]

/-- `_write_autosar_data_prototype`, writer.py 1861-1867. -/
def autosar_data_prototype : List (WItem Cls WM) :=
  [opt "type_ref" (.meth .autosar_data_type_ref (some "TYPE-TREF"))]

/-- `_write_variable_data_prototype_group`, writer.py 1887-1895. -/
def variable_data_prototype_group : List (WItem Cls WM) :=
  [.one .notNone "init_value" (some "INIT-VALUE") valueSpecAlts (some .notImplemented)]

/-- `_write_parameter_data_prototype_group`, writer.py 1915-1923. -/
def parameter_data_prototype_group : List (WItem Cls WM) :=
  [.one .notNone "init_value" (some "INIT-VALUE") valueSpecAlts (some .notImplemented)]

/-- `_write_argument_data_prototype_group`, writer.py 1943-1951. -/
def argument_data_prototype_group : List (WItem Cls WM) :=
  [opt "direction" (.text "DIRECTION" .enum),
   opt "server_arg_impl_policy" (.text "SERVER-ARGUMENT-IMPL-POLICY" .enum)]

/-- `_write_array_value_specification_group`, writer.py 2549-2558. -/
def array_value_specification_group : List (WItem Cls WM) :=
  [.many .truthy "elements" (some "ELEMENTS") valueSpecAlts (some .notImplemented)]

/-- `_write_record_value_specification_group`, writer.py 2576-2585. -/
def record_value_specification_group : List (WItem Cls WM) :=
  [.many .truthy "fields" (some "FIELDS") valueSpecAlts (some .notImplemented)]

/-- `_write_application_specification_group`, writer.py 2601-2613. -/
def application_specification_group : List (WItem Cls WM) :=
  [opt "category" (.text "CATEGORY" .str),
   list "sw_axis_conts" "SW-AXIS-CONTS" (.meth .sw_axis_cont none),
   opt "sw_value_cont" (.meth .sw_value_cont none)]

/-- `_write_value_specification_group`, writer.py 2615-2621. -/
def value_specification_group : List (WItem Cls WM) :=
  [opt "label" (.text "SHORT-LABEL" .str)]

/-- `_write_constant_specification_group`, writer.py 2648-2655. -/
def constant_specification_group : List (WItem Cls WM) :=
  [.one .notNone "value" (some "VALUE-SPEC") valueSpecAlts (some .notImplemented)]

/-- `_write_sw_values_group`, writer.py 2689-2702. -/
def sw_values_group : List (WItem Cls WM) :=
  [.many .always "values" none
      [(.isStr, .text "VT" .plain), (.oneOf [.isInt, .isFloat, .isNumVal], .text "V" .number),
       (.inst .ValueGroup, .meth .value_group (some "VG"))] (some .notImplemented)]

/-- `_write_sw_axis_cont_group`, writer.py 2733-2749. -/
def sw_axis_cont_group : List (WItem Cls WM) :=
  [opt "category" (.text "CATEGORY" .enum),
   opt "unit_ref" (.meth .unit_ref none),
   opt "unit_display_name" (.meth .single_language_unit_names (some "UNIT-DISPLAY-NAME")),
   opt "sw_axis_index" (.text "SW-AXIS-INDEX" .str),
   opt "sw_array_size" (.meth .value_list none),
   opt "sw_values_phys" (.meth .sw_values none)]

/-- `_write_sw_value_cont_group`, writer.py 2765-2777. -/
def sw_value_cont_group : List (WItem Cls WM) :=
  [opt "unit_ref" (.meth .unit_ref none),
   opt "unit_display_name" (.meth .single_language_unit_names (some "UNIT-DISPLAY-NAME")),
   opt "sw_array_size" (.meth .value_list none),
   opt "sw_values_phys" (.meth .sw_values none)]

/-- `_write_mode_transition_group`, writer.py 2824-2831. -/
def mode_transition_group : List (WItem Cls WM) :=
  [optT "entered_mode_ref" (.meth .mode_declaration_ref (some "ENTERED-MODE-REF")),
   optT "exited_mode_ref" (.meth .mode_declaration_ref (some "EXITED-MODE-REF"))]

/-- `_write_mode_declaration_group_data`, writer.py 2848-2869. -/
def mode_declaration_group_data : List (WItem Cls WM) :=
  [opt "initial_mode_ref" (.meth .mode_declaration_ref (some "INITIAL-MODE-REF")),
   list "mode_declarations" "MODE-DECLARATIONS" (.meth .mode_declaration none),
   opt "mode_manager_error_behavior" (.meth .mode_error_behavior (some "MODE-MANAGER-ERROR-BEHAVIOR")),
   list "mode_transitions" "MODE-TRANSITIONS" (.meth .mode_transition none),
   opt "mode_user_error_behavior" (.meth .mode_error_behavior (some "MODE-USER-ERROR-BEHAVIOR")),
   opt "on_transition_value" (.text "ON-TRANSITION-VALUE" .str)]

/-- `_write_mode_declaration_group_prototype_data`, writer.py 2887-2895. -/
def mode_declaration_group_prototype_data : List (WItem Cls WM) :=
  [opt "calibration_access" (.text "SW-CALIBRATION-ACCESS" .enum),
   opt "type_ref" (.meth .mode_declaration_group_ref (some "TYPE-TREF"))]

/-- `_write_port_interface`, writer.py 2899-2907. -/
def port_interface : List (WItem Cls WM) :=
  [opt "is_service" (.text "IS-SERVICE" .boolean),
   opt "service_kind" (.text "SERVICE-KIND" .enum)]

/-- `_write_nv_data_interface_group`, writer.py 2923-2932. -/
def nv_data_interface_group : List (WItem Cls WM) :=
  [list "data_elements" "NV-DATAS" (.meth .variable_data_prototype (some "VARIABLE-DATA-PROTOTYPE"))]

/-- `_write_parameter_interface_group`, writer.py 2948-2957. -/
def parameter_interface_group : List (WItem Cls WM) :=
  [list "parameters" "PARAMETERS" (.meth .parameter_data_prototype (some "PARAMETER-DATA-PROTOTYPE"))]

/-- `_write_sender_receiver_interface_group`, writer.py 2973-2987. -/
def sender_receiver_interface_group : List (WItem Cls WM) :=
  [list "data_elements" "DATA-ELEMENTS" (.meth .variable_data_prototype (some "VARIABLE-DATA-PROTOTYPE")),
   list "invalidation_policies" "INVALIDATION-POLICYS" (.meth .invalidation_policy none)]

/-- `_write_invalidation_policy_group`, writer.py 3003-3011. -/
def invalidation_policy_group : List (WItem Cls WM) :=
  [opt "data_element_ref" (.meth .variable_data_prototype_ref (some "DATA-ELEMENT-REF")),
   opt "handle_invalid" (.text "HANDLE-INVALID" .enum)]

/-- `_write_application_error_group`, writer.py 3026-3031. -/
def application_error_group : List (WItem Cls WM) :=
  [opt "error_code" (.text "ERROR-CODE" .str)]

/-- `_write_client_server_operation_group`, writer.py 3046-3063. -/
def client_server_operation_group : List (WItem Cls WM) :=
  [list "arguments" "ARGUMENTS" (.meth .argument_data_prototype none),
   opt "diag_arg_integrity" (.text "DIAG-ARG-INTEGRITY" .boolean),
   opt "fire_and_forget" (.text "FIRE-AND-FORGET" .boolean),
   list "possible_error_refs" "POSSIBLE-ERROR-REFS" (.meth .application_error_ref (some "POSSIBLE-ERROR-REF"))]

/-- `_write_client_server_interface_group`, writer.py 3079-3092. -/
def client_server_interface_group : List (WItem Cls WM) :=
  [list "operations" "OPERATIONS" (.meth .client_server_operation none),
   list "possible_errors" "POSSIBLE-ERRORS" (.meth .application_error none)]

/-- `_write_e2e_transformation_com_spec_props_group`, writer.py 3126-3164. -/
def e2e_transformation_com_spec_props_group : List (WItem Cls WM) :=
  [opt "clear_from_valid_to_invalid" (.text "CLEAR-FROM-VALID-TO-INVALID" .boolean),
   opt "disable_e2e_check" (.text "DISABLE-END-TO-END-CHECK" .boolean),
   opt "disable_e2e_state_machine" (.text "DISABLE-END-TO-END-STATE-MACHINE" .boolean),
   opt "e2e_profile_compatibility_props_ref" (.meth .e2e_profile_compatibility_props_ref none),
   opt "max_delta_counter" (.text "MAX-DELTA-COUNTER" .str),
   opt "max_error_state_init" (.text "MAX-ERROR-STATE-INIT" .str),
   opt "max_error_state_invalid" (.text "MAX-ERROR-STATE-INVALID" .str),
   opt "max_error_state_valid" (.text "MAX-ERROR-STATE-VALID" .str),
   opt "max_no_new_repeated_data" (.text "MAX-NO-NEW-OR-REPEATED-DATA" .str),
   opt "min_ok_state_init" (.text "MIN-OK-STATE-INIT" .str),
   opt "min_ok_state_invalid" (.text "MIN-OK-STATE-INVALID" .str),
   opt "min_ok_state_valid" (.text "MIN-OK-STATE-VALID" .str),
   opt "sync_counter_init" (.text "SYNC-COUNTER-INIT" .str),
   opt "window_size" (.text "WINDOW-SIZE" .str),
   opt "window_size_init" (.text "WINDOW-SIZE-INIT" .str),
   opt "window_size_invalid" (.text "WINDOW-SIZE-INVALID" .str),
   opt "window_size_valid" (.text "WINDOW-SIZE-VALID" .str)]

/-- `_write_mode_switch_sender_com_spec_group`, writer.py 3211-3224. -/
def mode_switch_sender_com_spec_group : List (WItem Cls WM) :=
  [opt "enhanced_mode_api" (.text "ENHANCED-MODE-API" .boolean),
   opt "mode_group_ref" (.meth .mode_declaration_group_prototype_ref (some "MODE-GROUP-REF")),
   opt "mode_switched_ack" (.meth .mode_switched_ack_request none),
   opt "queue_length" (.text "QUEUE-LENGTH" .str)]

/-- `_write_sender_com_spec_group`, writer.py 3260-3276. -/
def sender_com_spec_group : List (WItem Cls WM) :=
  [opt "data_element_ref" (.meth .autosar_data_prototype_ref (some "DATA-ELEMENT-REF")),
   opt "handle_out_of_range" (.text "HANDLE-OUT-OF-RANGE" .enum),
   opt "network_representation" (.meth .sw_data_def_props (some "NETWORK-REPRESENTATION")),
   opt "transmission_acknowledge" (.meth .transmission_acknowledgement_request none),
   opt "tranmsission_props" (.meth .tranmsission_com_spec_props none),
   opt "uses_end_to_end_protection" (.text "USES-END-TO-END-PROTECTION" .boolean)]

/-- `_write_non_queued_sender_com_spec_group`, writer.py 3307-3316. -/
def non_queued_sender_com_spec_group : List (WItem Cls WM) :=
  [opt "data_filter" (.meth .data_filter (some "DATA-FILTER")),
   .one .notNone "init_value" (some "INIT-VALUE") valueSpecAlts (some .notImplemented)]

/-- `_write_receiver_com_spec_group`, writer.py 3399-3427. -/
def receiver_com_spec_group : List (WItem Cls WM) :=
  [opt "data_element_ref" (.meth .autosar_data_prototype_ref (some "DATA-ELEMENT-REF")),
   opt "handle_out_of_range" (.text "HANDLE-OUT-OF-RANGE" .enum),
   opt "handle_out_of_range_status" (.text "HANDLE-OUT-OF-RANGE-STATUS" .enum),
   opt "max_delta_counter_init" (.text "MAX-DELTA-COUNTER-INIT" .str),
   opt "max_no_new_repeated_data" (.text "MAX-NO-NEW-OR-REPEATED-DATA" .str),
   opt "network_representation" (.meth .sw_data_def_props (some "NETWORK-REPRESENTATION")),
   opt "reception_props" (.meth .reception_com_spec_props none),
   opt "replace_with" (.meth .variable_access (some "REPLACE-WITH")),
   opt "sync_counter_init" (.text "SYNC-COUNTER-INIT" .str),
   list "transformation_com_spec_props" "TRANSFORMATION-COM-SPEC-PROPSS" (.meth .e2e_transformation_com_spec_props none),
   opt "uses_end_to_end_protection" (.text "USES-END-TO-END-PROTECTION" .boolean)]

/-- `_write_nonqueued_receiver_com_spec_group`, writer.py 3460-3483. -/
def nonqueued_receiver_com_spec_group : List (WItem Cls WM) :=
  [opt "alive_timeout" (.text "ALIVE-TIMEOUT" .float),
   opt "enable_update" (.text "ENABLE-UPDATE" .boolean),
   opt "data_filter" (.meth .data_filter (some "FILTER")),
   opt "handle_data_status" (.text "HANDLE-DATA-STATUS" .boolean),
   opt "handle_never_received" (.text "HANDLE-NEVER-RECEIVED" .boolean),
   opt "handle_timeout_type" (.text "HANDLE-TIMEOUT-TYPE" .enum),
   .one .notNone "init_value" (some "INIT-VALUE") valueSpecAlts (some .notImplemented),
   .one .notNone "timeout_substitution_value" (some "TIMEOUT-SUBSTITUTION-VALUE") valueSpecAlts (some .notImplemented)]

/-- `_write_provide_port_prototype_group`, writer.py 3601-3611. -/
def provide_port_prototype_group : List (WItem Cls WM) :=
  [.many .truthy "com_spec" (some "PROVIDED-COM-SPECS") providedComSpecAlts (some .notImplemented),
   opt "port_interface_ref" (.meth .port_interface_ref (some "PROVIDED-INTERFACE-TREF"))]

/-- `_write_require_port_prototype_group`, writer.py 3626-3638. -/
def require_port_prototype_group : List (WItem Cls WM) :=
  [opt "allow_unconnected" (.text "MAY-BE-UNCONNECTED" .boolean),
   .many .truthy "com_spec" (some "REQUIRED-COM-SPECS") requiredComSpecAlts (some .notImplemented),
   opt "port_interface_ref" (.meth .port_interface_ref (some "REQUIRED-INTERFACE-TREF"))]

/-- `_write_pr_port_prototype_group`, writer.py 3653-3668. -/
def pr_port_prototype_group : List (WItem Cls WM) :=
  [.many .truthy "provided_com_spec" (some "PROVIDED-COM-SPECS") providedComSpecAlts (some .notImplemented),
   .many .truthy "required_com_spec" (some "REQUIRED-COM-SPECS") requiredComSpecAlts (some .notImplemented),
   opt "port_interface_ref" (.meth .port_interface_ref (some "PROVIDED-REQUIRED-INTERFACE-TREF"))]

/-- `_write_sw_component_type`, writer.py 3683-3691. -/
def sw_component_type : List (WItem Cls WM) :=
  [.many .truthy "ports" (some "PORTS")
      [(.inst .ProvidePortPrototype, .meth .provide_port_prototype none),
       (.inst .RequirePortPrototype, .meth .require_port_prototype none),
       (.inst .PRPortPrototype, .meth .pr_port_prototype none)] (some .notImplemented)]

/-- `_write_atomic_sw_component_type`, writer.py 3693-3702. -/
def atomic_sw_component_type : List (WItem Cls WM) :=
  [optIn "internal_behavior" "INTERNAL-BEHAVIORS" (.meth .swc_internal_behavior none),
   opt "symbol_props" (.meth .symbol_props (some "SYMBOL-PROPS"))]

/-- `_write_composition_sw_component_type_group`, writer.py 3829-3847. -/
def composition_sw_component_type_group : List (WItem Cls WM) :=
  [list "components" "COMPONENTS" (.meth .sw_component_prototype none),
   .many .truthy "connectors" (some "CONNECTORS")
      [(.inst .AssemblySwConnector, .meth .assembly_sw_connector none),
       (.inst .DelegationSwConnector, .meth .delegation_sw_connector none),
       (.inst .PassThroughSwConnector, .meth .passthrough_sw_connector none)] none]

/-- `_write_swc_implementation_group`, writer.py 3863-3871. -/
def swc_implementation_group : List (WItem Cls WM) :=
  [opt "behavior_ref" (.meth .swc_internal_behavior_ref (some "BEHAVIOR-REF")),
   opt "required_rte_vendor" (.text "REQUIRED-RTE-VENDOR" .plain)]

/-- `_write_abstract_access_point`, writer.py 4167-4172. -/
def abstract_access_point : List (WItem Cls WM) :=
  [opt "return_value_provision" (.text "RETURN-VALUE-PROVISION" .enum)]

/-- `_write_server_call_point`, writer.py 4174-4181. -/
def server_call_point : List (WItem Cls WM) :=
  [opt "operation" (.meth .r_operation_in_atomic_swc_instance_ref none),
   opt "timeout" (.text "TIMEOUT" .number)]

/-- `_write_async_server_call_result_point_group`, writer.py 4228-4233. -/
def async_server_call_result_point_group : List (WItem Cls WM) :=
  [opt "async_server_call_point" (.meth .async_server_call_point_ref none)]

/-- `_write_parameter_access_group`, writer.py 4387-4394. -/
def parameter_access_group : List (WItem Cls WM) :=
  [opt "accessed_parameter" (.meth .autosar_parameter_ref (some "ACCESSED-PARAMETER")),
   opt "sw_data_def_props" (.meth .sw_data_def_props (some "SW-DATA-DEF-PROPS"))]

/-- `_write_wait_point_group`, writer.py 4409-4416. -/
def wait_point_group : List (WItem Cls WM) :=
  [opt "timeout" (.text "TIMEOUT" .number),
   opt "trigger" (.meth .rte_event_ref (some "TRIGGER-REF"))]

/-- `_write_executable_entity`, writer.py 4418-4466. -/
def executable_entity : List (WItem Cls WM) :=
  [list "activation_reasons" "ACTIVATION-REASONS" (.meth .executable_entity_activation_reason none),
   list "can_enter_leave" "CAN-ENTERS" (.meth .exclusive_area_ref_conditional none),
   list "exclusive_area_nesting_order" "EXCLUSIVE-AREA-NESTING-ORDER-REFS" (.meth .exclusive_area_nesting_order_ref (some "EXCLUSIVE-AREA-NESTING-ORDER-REF")),
   opt "minimum_start_interval" (.text "MINIMUM-START-INTERVAL" .number),
   opt "reentrancy_level" (.text "REENTRANCY-LEVEL" .enum),
   list "runs_insides" "RUNS-INSIDES" (.meth .exclusive_area_ref_conditional none),
   opt "sw_addr_method" (.meth .sw_addr_method_ref none)]

/-- `_write_runnable_entity_group`, writer.py 4484-4574. -/
def runnable_entity_group : List (WItem Cls WM) :=
  [list "argument" "ARGUMENTS" (.meth .runnable_entity_argument none),
   list "async_server_call_result_point" "ASYNCHRONOUS-SERVER-CALL-RESULT-POINTS" (.meth .async_server_call_result_point none),
   opt "can_be_invoked_concurrently" (.text "CAN-BE-INVOKED-CONCURRENTLY" .boolean),
   list "data_read_access" "DATA-READ-ACCESSS" (.meth .variable_access (some "VARIABLE-ACCESS")),
   list "data_receive_point_by_argument" "DATA-RECEIVE-POINT-BY-ARGUMENTS" (.meth .variable_access (some "VARIABLE-ACCESS")),
   list "data_receive_point_by_value" "DATA-RECEIVE-POINT-BY-VALUES" (.meth .variable_access (some "VARIABLE-ACCESS")),
   list "data_send_point" "DATA-SEND-POINTS" (.meth .variable_access (some "VARIABLE-ACCESS")),
   list "data_write_access" "DATA-WRITE-ACCESSS" (.meth .variable_access (some "VARIABLE-ACCESS")),
   list "external_triggering_point" "EXTERNAL-TRIGGERING-POINTS" (.meth .external_triggering_point none),
   list "internal_triggering_point" "INTERNAL-TRIGGERING-POINTS" (.meth .internal_triggering_point none),
   list "mode_access_point" "MODE-ACCESS-POINTS" (.meth .mode_access_point none),
   list "mode_switch_point" "MODE-SWITCH-POINTS" (.meth .mode_switch_point none),
   list "parameter_access" "PARAMETER-ACCESSS" (.meth .parameter_access none),
   list "read_local_variable" "READ-LOCAL-VARIABLES" (.meth .variable_access (some "VARIABLE-ACCESS")),
   .many .truthy "server_call_point" (some "SERVER-CALL-POINTS")
      [(.inst .AsynchronousServerCallPoint, .meth .async_server_call_point none),
       (.any, .meth .sync_server_call_point none)] none,
   opt "symbol" (.text "SYMBOL" .str),
   list "wait_point" "WAIT-POINTS" (.meth .wait_point none),
   list "write_local_variable" "WRITTEN-LOCAL-VARIABLES" (.meth .variable_access (some "VARIABLE-ACCESS"))]

/-- `_write_rte_event_group`, writer.py 4576-4586. -/
def rte_event_group : List (WItem Cls WM) :=
  [list "disabled_modes" "DISABLED-MODE-IREFS" (.meth .r_mode_in_atomic_swc_instance_ref (some "DISABLED-MODE-IREF")),
   opt "start_on_event" (.meth .runnable_entity_ref (some "START-ON-EVENT-REF"))]

/-- `_write_swc_mode_switch_event_group`, writer.py 4778-4791. -/
def swc_mode_switch_event_group : List (WItem Cls WM) :=
  [opt "activation" (.text "ACTIVATION" .enum),
   list "mode" "MODE-IREFS" (.meth .r_mode_in_atomic_swc_instance_ref (some "MODE-IREF"))]

/-- `_write_transformer_hard_error_event_group`, writer.py 4824-4830. -/
def transformer_hard_error_event_group : List (WItem Cls WM) :=
  [opt "operation" (.meth .p_operation_in_atomic_swc_instance_ref none),
   opt "required_trigger" (.meth .r_trigger_in_atomic_swc_instance_ref (some "REQUIRED-TRIGGER-IREF")),
   opt "trigger" (.meth .p_trigger_in_atomic_swc_instance_ref (some "TRIGGER-IREF"))]

/-- `_write_port_api_option_group`, writer.py 4880-4907. -/
def port_api_option_group : List (WItem Cls WM) :=
  [opt "enable_take_address" (.text "ENABLE-TAKE-ADDRESS" .boolean),
   opt "error_handling" (.text "ERROR-HANDLING" .enum),
   opt "indirect_api" (.text "INDIRECT-API" .boolean),
   list "port_arg_values" "PORT-ARG-VALUES" (.meth .port_defined_argument_value none),
   opt "port" (.meth .port_prototype_ref (some "PORT-REF")),
   .many .truthy "supported_features" (some "SUPPORTED-FEATURES")
      [(.inst .CommunicationBufferLocking, .meth .communication_buffer_locking none)] (some .notImplemented),
   opt "transformer_status_forwarding" (.text "TRANSFORMER-STATUS-FORWARDING" .enum)]

/-- `_write_internal_behavior_group`, writer.py 4933-4946. -/
def internal_behavior_group : List (WItem Cls WM) :=
  [list "data_type_mappings" "DATA-TYPE-MAPPING-REFS" (.meth .data_type_mapping_set_ref (some "DATA-TYPE-MAPPING-REF")),
   list "exclusive_areas" "EXCLUSIVE-AREAS" (.meth .exclusive_area none)]

/-- `_write_swc_internal_behavior_group`, writer.py 4948-4967. -/
def swc_internal_behavior_group : List (WItem Cls WM) :=
  [.many .truthy "events" (some "EVENTS") rteEventAlts (some .notImplemented),
   list "port_api_options" "PORT-API-OPTIONS" (.meth .port_api_option none),
   list "runnables" "RUNNABLES" (.meth .runnable_entity none)]

/-! ### Methods -/

/-- `_write_annotation`, writer.py 559-571. -/
def annotation : WMethod Cls WM :=
  .node (some .Annotation) (some "ANNOTATION") [] true
    (general_annotation)

/-- `_write_break`, writer.py 586-592. -/
def «break» : WMethod Cls WM :=
  .leaf .Break "BR" [] none .notImplemented

/-- `_write_documentation_block`, writer.py 594-612. -/
def documentation_block : WMethod Cls WM :=
  .node (some .DocumentationBlock) none [] true
    ([.many .always "elements" none
      [(.inst .MultiLanguageParagraph, .meth .multi_language_paragraph none),
       (.inst .MultiLanguageVerbatim, .meth .multi_language_verbatim none)] (some .notImplemented)])

/-- `_write_emphasis_text`, writer.py 614-638. -/
def emphasis_text : WMethod Cls WM :=
  .leaf .EmphasisText "E" [⟨"COLOR", "color", false, false⟩, ⟨"FONT", "font", true, false⟩,
     ⟨"TYPE", "type", true, false⟩] (some "elements") .notImplemented

/-- `_write_index_entry`, writer.py 640-646. -/
def index_entry : WMethod Cls WM :=
  .leaf .IndexEntry "IE" [] (some "text") .assertionError

/-- `_write_technical_term`, writer.py 648-666. -/
def technical_term : WMethod Cls WM :=
  .leaf .TechnicalTerm "TT" [⟨"TEX-RENDER", "tex_render", false, false⟩, ⟨"TYPE", "type", false, false⟩] (some "text") .assertionError

/-- `_write_superscript`, writer.py 668-674. -/
def superscript : WMethod Cls WM :=
  .leaf .Superscript "SUP" [] (some "text") .assertionError

/-- `_write_subscript`, writer.py 676-682. -/
def subscript : WMethod Cls WM :=
  .leaf .Subscript "SUB" [] (some "text") .assertionError

/-- `_write_multi_language_long_name`, writer.py 684-694. -/
def multi_language_long_name : WMethod Cls WM :=
  .node none none [] false
    ([.many .always "elements" none
      [(.any, .meth .language_long_name none)] none])

/-- `_write_language_long_name`, writer.py 696-728. -/
def language_long_name : WMethod Cls WM :=
  .mixed .LanguageLongName (some "L-4") [⟨"L", "language", true, true⟩] "parts"
    [(.inst .EmphasisText, .meth .emphasis_text none),
     (.inst .IndexEntry, .meth .index_entry none), (.inst .Subscript, .meth .subscript none),
     (.inst .Superscript, .meth .superscript none),
     (.inst .TechnicalTerm, .meth .technical_term none)]

/-- `_write_multi_language_overview_paragraph`, writer.py 730-742. -/
def multi_language_overview_paragraph (tag : Option String) : WMethod Cls WM :=
  match tag with
  | some "DESC" | some "ITEM-LABEL" | some "CHANGE" | some "REASON" =>
    .node (some .MultiLanguageOverviewParagraph) none [] false
      ([.many .always "elements" none
        [(.any, .meth .language_overview_paragraph none)] none])
  | _ => .bad .valueError

/-- `_write_multi_language_verbatim`, writer.py 744-758. -/
def multi_language_verbatim : WMethod Cls WM :=
  .node (some .MultiLanguageVerbatim) (some "VERBATIM") [⟨"SI", "semantic_information", false, false⟩, ⟨"VIEW", "view", false, false⟩,
     ⟨"BREAK", "page_break", true, false⟩,
     ⟨"KEEP-WITH-PREVIOUS", "keep_with_previous", true, false⟩,
     ⟨"ALLOW-BREAK", "allow_break", false, false⟩, ⟨"FLOAT", "float", true, false⟩,
     ⟨"HELP-ENTRY", "help_entry", false, false⟩, ⟨"PGWIDE", "page_wide", true, false⟩] false
    ([.many .always "elements" none
      [(.any, .meth .language_verbatim none)] none])

/-- `_write_language_overview_paragraph`, writer.py 775-803. -/
def language_overview_paragraph : WMethod Cls WM :=
  .mixed .LanguageOverviewParagraph (some "L-2") [⟨"L", "language", true, true⟩] "parts"
    [(.inst .Break, .meth .«break» none), (.inst .EmphasisText, .meth .emphasis_text none),
     (.inst .IndexEntry, .meth .index_entry none), (.inst .Subscript, .meth .subscript none),
     (.inst .Superscript, .meth .superscript none),
     (.inst .TechnicalTerm, .meth .technical_term none)]

/-- `_write_language_paragraph`, writer.py 805-833. -/
def language_paragraph : WMethod Cls WM :=
  .mixed .LanguageParagraph (some "L-1") [⟨"L", "language", true, true⟩] "parts"
    [(.inst .Break, .meth .«break» none), (.inst .EmphasisText, .meth .emphasis_text none),
     (.inst .IndexEntry, .meth .index_entry none), (.inst .Subscript, .meth .subscript none),
     (.inst .Superscript, .meth .superscript none),
     (.inst .TechnicalTerm, .meth .technical_term none)]

/-- `_write_language_verbatim`, writer.py 835-857. -/
def language_verbatim : WMethod Cls WM :=
  .mixed .LanguageVerbatim (some "L-5") [⟨"L", "language", true, true⟩] "parts"
    [(.inst .Break, .meth .«break» none), (.inst .EmphasisText, .meth .emphasis_text none),
     (.inst .TechnicalTerm, .meth .technical_term none)]

/-- `_write_multi_language_paragraph`, writer.py 859-873. -/
def multi_language_paragraph : WMethod Cls WM :=
  .node (some .MultiLanguageParagraph) (some "P") [⟨"SI", "semantic_information", false, false⟩, ⟨"VIEW", "view", false, false⟩,
     ⟨"BREAK", "page_break", true, false⟩,
     ⟨"KEEP-WITH-PREVIOUS", "keep_with_previous", true, false⟩,
     ⟨"HELP-ENTRY", "help_entry", false, false⟩] false
    ([.many .always "elements" none
      [(.any, .meth .language_paragraph none)] none])

/-- `_write_single_language_unit_names`, writer.py 918-935. -/
def single_language_unit_names : WMethod Cls WM :=
  .mixed .SingleLanguageUnitNames none [] "parts"
    [(.inst .Subscript, .meth .subscript none), (.inst .Superscript, .meth .superscript none)]

/-- `_write_compu_method`, writer.py 953-967. -/
def compu_method : WMethod Cls WM :=
  .node (some .CompuMethod) (some "COMPU-METHOD") uuidAttr false
    (referrable ++ multilanguage_referrable ++ identifiable ++ compu_method_group)

/-- `_write_computation`, writer.py 982-996. -/
def computation : WMethod Cls WM :=
  .node none none [] false
    ([.many .notNone "compu_scales" (some "COMPU-SCALES")
      [(.any, .meth .compu_scale none)] none,
     opt "default_value" (.meth .compu_const (some "COMPU-DEFAULT-VALUE"))])

/-- `_write_compu_scale`, writer.py 998-1029. -/
def compu_scale : WMethod Cls WM :=
  .node (some .CompuScale) (some "COMPU-SCALE") [] true
    ([opt "label" (.text "SHORT-LABEL" .str),
     opt "symbol" (.text "SYMBOL" .str),
     opt "desc" (.meth .multi_language_overview_paragraph (some "DESC")),
     opt "mask" (.text "MASK" .str),
     opt "lower_limit" (.limit "LOWER-LIMIT"),
     opt "upper_limit" (.limit "UPPER-LIMIT"),
     opt "inverse_value" (.meth .compu_const (some "COMPU-INVERSE-VALUE")),
     .one .notNone "content" none
      [(.inst .CompuConst, .meth .compu_const (some "COMPU-CONST")),
       (.inst .CompuRational, .meth .compu_rational none)] none])

/-- `_write_compu_const`, writer.py 1046-1062. -/
def compu_const : WMethod Cls WM :=
  .node (some .CompuConst) none [] false
    ([.one .always "value" none
      [(.isStr, .text "VT" .plain), (.isFloat, .text "V" .float), (.isInt, .text "V" .str)] (some .typeError)])

/-- `_write_compu_rational`, writer.py 1064-1084. -/
def compu_rational : WMethod Cls WM :=
  .node (some .CompuRational) (some "COMPU-RATIONAL-COEFFS") [] true
    ([.many .notNone "numerator" (some "COMPU-NUMERATOR")
      [(.isFloat, .text "V" .float), (.any, .text "V" .str)] none,
     .many .notNone "denominator" (some "COMPU-DENOMINATOR")
      [(.isFloat, .text "V" .float), (.any, .text "V" .str)] none])

/-- `_write_data_constraint`, writer.py 1103-1117. -/
def data_constraint : WMethod Cls WM :=
  .node (some .DataConstraint) (some "DATA-CONSTR") uuidAttr false
    (referrable ++ multilanguage_referrable ++ identifiable ++ data_constraint_group)

/-- `_write_data_constraint_rule`, writer.py 1130-1148. -/
def data_constraint_rule : WMethod Cls WM :=
  .node (some .DataConstraintRule) (some "DATA-CONSTR-RULE") [] true
    ([opt "level" (.text "CONSTR-LEVEL" .str),
     opt "physical" (.meth .physical_constraint none),
     opt "internal" (.meth .internal_constraint none)])

/-- `_write_internal_constraint`, writer.py 1150-1163. -/
def internal_constraint : WMethod Cls WM :=
  .node (some .InternalConstraint) (some "INTERNAL-CONSTRS") [] true
    (constraint_base)

/-- `_write_physical_constraint`, writer.py 1165-1180. -/
def physical_constraint : WMethod Cls WM :=
  .node (some .PhysicalConstraint) (some "PHYS-CONSTRS") [] true
    (constraint_base ++
    [opt "unit_ref" (.meth .unit_ref none)])

/-- `_write_scale_constraint`, writer.py 1204-1227. -/
def scale_constraint : WMethod Cls WM :=
  .node (some .ScaleConstraint) (some "SCALE-CONSTR") [⟨"VALIDITY", "validity", true, false⟩] true
    ([opt "label" (.text "SHORT-LABEL" .plain),
     opt "desc" (.meth .multi_language_overview_paragraph (some "DESC")),
     opt "lower_limit" (.limit "LOWER-LIMIT"),
     opt "upper_limit" (.limit "UPPER-LIMIT")])

/-- `_write_unit`, writer.py 1231-1245. -/
def unit : WMethod Cls WM :=
  .node (some .Unit) (some "UNIT") uuidAttr false
    (referrable ++ multilanguage_referrable ++ identifiable ++ unit_group)

/-- `_write_data_filter`, writer.py 1259-1270. -/
def data_filter : WMethod Cls WM :=
  .node (some .DataFilter) none [] true
    (data_filter_group)

/-- `_write_autosar_engineering_object`, writer.py 1300-1311. -/
def autosar_engineering_object : WMethod Cls WM :=
  .node (some .AutosarEngineeringObject) none [] true
    (engineering_object)

/-- `_write_code`, writer.py 1313-1330. -/
def code : WMethod Cls WM :=
  .node (some .Code) (some "CODE") uuidAttr false
    (referrable ++ multilanguage_referrable ++ identifiable ++
    [list "artifact_descriptors" "ARTIFACT-DESCRIPTORS" (.meth .autosar_engineering_object (some "AUTOSAR-ENGINEERING-OBJECT"))])

/-- `_write_package` without elements and sub-packages, writer.py 520-532. -/
def package : WMethod Cls WM :=
  .node (some .Package) (some "AR-PACKAGE") uuidAttr false
    (referrable ++ multilanguage_referrable ++ identifiable)

/-- `_write_sw_addr_method`, writer.py 1359-1373. -/
def sw_addr_method : WMethod Cls WM :=
  .node (some .SwAddrMethod) (some "SW-ADDR-METHOD") uuidAttr false
    (referrable ++ multilanguage_referrable ++ identifiable ++ sw_addr_method_group)

/-- `_write_sw_base_type`, writer.py 1388-1402. -/
def sw_base_type : WMethod Cls WM :=
  .node (some .SwBaseType) (some "SW-BASE-TYPE") uuidAttr false
    (referrable ++ multilanguage_referrable ++ identifiable ++ base_type)

/-- `_write_sw_data_def_props`, writer.py 1423-1439. -/
def sw_data_def_props : WMethod Cls WM :=
  .node (some .SwDataDefProps) none [] true
    ([list "variants" "SW-DATA-DEF-PROPS-VARIANTS" (.meth .sw_data_def_props_conditional none)])

/-- `_write_sw_data_def_props_conditional`, writer.py 1441-1454. -/
def sw_data_def_props_conditional : WMethod Cls WM :=
  .node (some .SwDataDefPropsConditional) (some "SW-DATA-DEF-PROPS-CONDITIONAL") [] true
    (sw_data_def_props_content)

/-- `_write_sw_bit_represenation`, writer.py 1507-1522. -/
def sw_bit_represenation : WMethod Cls WM :=
  .node none (some "SW-BIT-REPRESENTATION") [] true
    ([opt "position" (.text "BIT-POSITION" .str),
     opt "num_bits" (.text "NUMBER-OF-BITS" .str)])

/-- `_write_sw_text_props`, writer.py 1524-1543. -/
def sw_text_props : WMethod Cls WM :=
  .node none (some "SW-TEXT-PROPS") [] true
    ([opt "array_size_semantics" (.text "ARRAY-SIZE-SEMANTICS" .enum),
     opt "max_text_size" (.text "SW-MAX-TEXT-SIZE" .str),
     opt "base_type_ref" (.meth .sw_base_type_ref none),
     opt "fill_char" (.text "SW-FILL-CHARACTER" .str)])

/-- `_write_sw_pointer_target_props`, writer.py 1545-1562. -/
def sw_pointer_target_props : WMethod Cls WM :=
  .node none (some "SW-POINTER-TARGET-PROPS") [] true
    ([opt "target_category" (.text "TARGET-CATEGORY" .str),
     opt "sw_data_def_props" (.meth .sw_data_def_props (some "SW-DATA-DEF-PROPS")),
     opt "function_ptr_signature_ref" (.meth .function_ptr_signature_ref none)])

/-- `_write_symbol_props`, writer.py 1564-1574. -/
def symbol_props : WMethod Cls WM :=
  .node (some .SymbolProps) none [] false
    (referrable ++ implementation_props)

/-- `_write_implementation_data_type_element`, writer.py 1584-1596. -/
def implementation_data_type_element : WMethod Cls WM :=
  .node (some .ImplementationDataTypeElement) (some "IMPLEMENTATION-DATA-TYPE-ELEMENT") [] false
    (referrable ++ multilanguage_referrable ++ identifiable ++
    implementation_data_type_element_group)

/-- `_write_implementation_data_type`, writer.py 1621-1634. -/
def implementation_data_type : WMethod Cls WM :=
  .node (some .ImplementationDataType) (some "IMPLEMENTATION-DATA-TYPE") [] false
    (referrable ++ multilanguage_referrable ++ identifiable ++ autosar_data_type ++
    implementation_data_type_group)

/-- `_write_application_primitive_data_type`, writer.py 1672-1684. -/
def application_primitive_data_type : WMethod Cls WM :=
  .node (some .ApplicationPrimitiveDataType) (some "APPLICATION-PRIMITIVE-DATA-TYPE") [] false
    (referrable ++ multilanguage_referrable ++ identifiable ++ autosar_data_type)

/-- `_write_application_array_element`, writer.py 1697-1711. -/
def application_array_element : WMethod Cls WM :=
  .node (some .ApplicationArrayElement) (some "ELEMENT") [] false
    (referrable ++ multilanguage_referrable ++ identifiable ++ data_prototype ++
    application_composite_element_data_prototype ++ application_array_element_group)

/-- `_write_application_record_element`, writer.py 1727-1741. -/
def application_record_element : WMethod Cls WM :=
  .node (some .ApplicationRecordElement) (some "APPLICATION-RECORD-ELEMENT") [] false
    (referrable ++ multilanguage_referrable ++ identifiable ++ data_prototype ++
    application_composite_element_data_prototype ++ application_record_element_group)

/-- `_write_application_array_data_type`, writer.py 1751-1764. -/
def application_array_data_type : WMethod Cls WM :=
  .node (some .ApplicationArrayDataType) (some "APPLICATION-ARRAY-DATA-TYPE") [] false
    (referrable ++ multilanguage_referrable ++ identifiable ++ autosar_data_type ++
    application_array_data_type_group)

/-- `_write_application_record_data_type`, writer.py 1776-1789. -/
def application_record_data_type : WMethod Cls WM :=
  .node (some .ApplicationRecordDataType) (some "APPLICATION-RECORD-DATA-TYPE") [] false
    (referrable ++ multilanguage_referrable ++ identifiable ++ autosar_data_type ++
    application_record_data_type_group)

/-- `_write_data_type_map`, writer.py 1802-1814. -/
def data_type_map : WMethod Cls WM :=
  .node (some .DataTypeMap) (some "DATA-TYPE-MAP") [] false
    ([opt "appl_data_type_ref" (.meth .application_data_type_ref (some "APPLICATION-DATA-TYPE-REF")),
     opt "impl_data_type_ref" (.meth .impl_data_type_ref (some "IMPLEMENTATION-DATA-TYPE-REF"))])

/-- `_write_data_type_mapping_set`, writer.py 1816-1835. -/
def data_type_mapping_set : WMethod Cls WM :=
  .node (some .DataTypeMappingSet) (some "DATA-TYPE-MAPPING-SET") uuidAttr false
    (referrable ++ multilanguage_referrable ++ identifiable ++
    [list "data_type_maps" "DATA-TYPE-MAPS" (.meth .data_type_map none)])

/-- `_write_value_list`, writer.py 1837-1850. -/
def value_list : WMethod Cls WM :=
  .node (some .ValueList) (some "SW-ARRAYSIZE") [] true
    (value_list_group)

/-- `_write_variable_data_prototype`, writer.py 1869-1885. -/
def variable_data_prototype : WMethod Cls WM :=
  .node (some .VariableDataPrototype) none uuidAttr false
    (referrable ++ multilanguage_referrable ++ identifiable ++ data_prototype ++
    autosar_data_prototype ++ variable_data_prototype_group)

/-- `_write_parameter_data_prototype`, writer.py 1897-1913. -/
def parameter_data_prototype : WMethod Cls WM :=
  .node (some .ParameterDataPrototype) none uuidAttr false
    (referrable ++ multilanguage_referrable ++ identifiable ++ data_prototype ++
    autosar_data_prototype ++ variable_data_prototype_group)

/-- `_write_argument_data_prototype`, writer.py 1925-1941. -/
def argument_data_prototype : WMethod Cls WM :=
  .node (some .ArgumentDataPrototype) (some "ARGUMENT-DATA-PROTOTYPE") uuidAttr false
    (referrable ++ multilanguage_referrable ++ identifiable ++ data_prototype ++
    autosar_data_prototype ++ argument_data_prototype_group)

/-- `_write_mode_request_type_map`, writer.py 1953-1968. -/
def mode_request_type_map : WMethod Cls WM :=
  .node (some .ModeRequestTypeMap) (some "MODE-REQUEST-TYPE-MAP") [] true
    ([opt "implementation_data_type" (.meth .impl_data_type_ref (some "IMPLEMENTATION-DATA-TYPE-REF")),
     opt "mode_group" (.meth .mode_declaration_group_ref (some "MODE-GROUP-REF"))])

/-- `_write_compu_method_ref`, writer.py 1982-1994. -/
def compu_method_ref : WMethod Cls WM :=
  .ref (some "CompuMethodRef") (some "COMPU-METHOD-REF")

/-- `_write_data_constraint_ref`, writer.py 1996-2008. -/
def data_constraint_ref : WMethod Cls WM :=
  .ref (some "DataConstraintRef") (some "DATA-CONSTR-REF")

/-- `_write_function_ptr_signature_ref`, writer.py 2010-2022. -/
def function_ptr_signature_ref : WMethod Cls WM :=
  .ref (some "FunctionPtrSignatureRef") (some "FUNCTION-POINTER-SIGNATURE-REF")

/-- `_write_impl_data_type_ref`, writer.py 2024-2035. -/
def impl_data_type_ref : WMethod Cls WM :=
  .ref (some "ImplementationDataTypeRef") none

/-- `_write_sw_base_type_ref`, writer.py 2037-2049. -/
def sw_base_type_ref : WMethod Cls WM :=
  .ref (some "SwBaseTypeRef") (some "BASE-TYPE-REF")

/-- `_write_sw_addr_method_ref`, writer.py 2051-2059. -/
def sw_addr_method_ref : WMethod Cls WM :=
  .ref (some "SwAddrMethodRef") (some "SW-ADDR-METHOD-REF")

/-- `_write_unit_ref`, writer.py 2061-2070. -/
def unit_ref : WMethod Cls WM :=
  .ref (some "UnitRef") (some "UNIT-REF")

/-- `_write_physical_dimension_ref`, writer.py 2072-2081. -/
def physical_dimension_ref : WMethod Cls WM :=
  .ref (some "PhysicalDimensionRef") (some "PHYSICAL-DIMENSION-REF")

/-- `_write_index_data_type_ref`, writer.py 2083-2092. -/
def index_data_type_ref : WMethod Cls WM :=
  .ref (some "IndexDataTypeRef") (some "INDEX-DATA-TYPE-REF")

/-- `_write_application_data_type_ref`, writer.py 2094-2103. -/
def application_data_type_ref : WMethod Cls WM :=
  .ref (some "ApplicationDataTypeRef") none

/-- `_write_constant_ref`, writer.py 2105-2116. -/
def constant_ref : WMethod Cls WM :=
  .ref (some "ConstantRef") none

/-- `_write_autosar_data_type_ref`, writer.py 2118-2131. -/
def autosar_data_type_ref : WMethod Cls WM :=
  .ref (some "AutosarDataTypeRef") none

/-- `_write_variable_data_prototype_ref`, writer.py 2133-2142. -/
def variable_data_prototype_ref : WMethod Cls WM :=
  .ref (some "VariableDataPrototypeRef") none

/-- `_write_parameter_data_prototype_ref`, writer.py 2144-2153. -/
def parameter_data_prototype_ref : WMethod Cls WM :=
  .ref (some "ParameterDataPrototypeRef") none

/-- `_write_application_error_ref`, writer.py 2155-2164. -/
def application_error_ref : WMethod Cls WM :=
  .ref (some "ApplicationErrorRef") none

/-- `_write_mode_declaration_ref`, writer.py 2166-2175. -/
def mode_declaration_ref : WMethod Cls WM :=
  .ref (some "ModeDeclarationRef") none

/-- `_write_mode_declaration_group_ref`, writer.py 2177-2186. -/
def mode_declaration_group_ref : WMethod Cls WM :=
  .ref (some "ModeDeclarationGroupRef") none

/-- `_write_mode_declaration_group_prototype_ref`, writer.py 2188-2198. -/
def mode_declaration_group_prototype_ref : WMethod Cls WM :=
  .ref (some "ModeDeclarationGroupPrototypeRef") none

/-- `_write_autosar_data_prototype_ref`, writer.py 2200-2209. -/
def autosar_data_prototype_ref : WMethod Cls WM :=
  .ref (some "AutosarDataPrototypeRef") none

/-- `_write_e2e_profile_compatibility_props_ref`, writer.py 2211-2221. -/
def e2e_profile_compatibility_props_ref : WMethod Cls WM :=
  .ref (some "E2EProfileCompatibilityPropsRef") (some "E-2-E-PROFILE-COMPATIBILITY-PROPS-REF")

/-- `_write_client_server_operation_ref`, writer.py 2223-2232. -/
def client_server_operation_ref : WMethod Cls WM :=
  .ref (some "ClientServerOperationRef") none

/-- `_write_port_prototype_ref`, writer.py 2234-2243. -/
def port_prototype_ref : WMethod Cls WM :=
  .ref (some "PortPrototypeRef") none

/-- `_write_abstract_impl_data_type_element_ref`, writer.py 2245-2254. -/
def abstract_impl_data_type_element_ref : WMethod Cls WM :=
  .ref (some "AbstractImplementationDataTypeElementRef") none

/-- `_write_appl_composite_element_data_proto_ref`, writer.py 2256-2265. -/
def appl_composite_element_data_proto_ref : WMethod Cls WM :=
  .ref (some "ApplicationCompositeElementDataPrototypeRef") none

/-- `_write_data_prototype_ref`, writer.py 2267-2276. -/
def data_prototype_ref : WMethod Cls WM :=
  .ref (some "DataPrototypeRef") none

/-- `_write_port_interface_ref`, writer.py 2278-2287. -/
def port_interface_ref : WMethod Cls WM :=
  .ref (some "PortInterfaceRef") none

/-- `_write_sw_component_type_ref`, writer.py 2289-2298. -/
def sw_component_type_ref : WMethod Cls WM :=
  .ref (some "SwComponentTypeRef") none

/-- `_write_sw_component_prototype_ref`, writer.py 2300-2309. -/
def sw_component_prototype_ref : WMethod Cls WM :=
  .ref (some "SwComponentPrototypeRef") none

/-- `_write_exclusive_area_ref`, writer.py 2311-2320. -/
def exclusive_area_ref : WMethod Cls WM :=
  .ref (some "ExclusiveAreaRef") none

/-- `_write_exclusive_area_nesting_order_ref`, writer.py 2322-2331. -/
def exclusive_area_nesting_order_ref : WMethod Cls WM :=
  .ref (some "ExclusiveAreaNestingOrderRef") none

/-- `_write_abstract_required_port_prototype_ref`, writer.py 2333-2342. -/
def abstract_required_port_prototype_ref : WMethod Cls WM :=
  .ref (some "AbstractRequiredPortPrototypeRef") none

/-- `_write_abstract_provided_port_prototype_ref`, writer.py 2344-2352. -/
def abstract_provided_port_prototype_ref : WMethod Cls WM :=
  .ref (some "AbstractProvidedPortPrototypeRef") none

/-- `_write_swc_internal_behavior_ref`, writer.py 2354-2363. -/
def swc_internal_behavior_ref : WMethod Cls WM :=
  .ref (some "SwcInternalBehaviorRef") none

/-- `_write_runnable_entity_ref`, writer.py 2365-2372. -/
def runnable_entity_ref : WMethod Cls WM :=
  .ref (some "RunnableEntityRef") none

/-- `_write_variable_access_ref`, writer.py 2374-2382. -/
def variable_access_ref : WMethod Cls WM :=
  .ref (some "VariableAccessRef") none

/-- `_write_mode_switch_point_ref`, writer.py 2384-2392. -/
def mode_switch_point_ref : WMethod Cls WM :=
  .ref (some "ModeSwitchPointRef") (some "EVENT-SOURCE-REF")

/-- `_write_async_server_call_point_ref`, writer.py 2394-2402. -/
def async_server_call_point_ref : WMethod Cls WM :=
  .ref (some "AsynchronousServerCallPointRef") (some "ASYNCHRONOUS-SERVER-CALL-POINT-REF")

/-- `_write_async_server_call_result_point_ref`, writer.py 2404-2412. -/
def async_server_call_result_point_ref : WMethod Cls WM :=
  .ref (some "AsynchronousServerCallResultPointRef") (some "EVENT-SOURCE-REF")

/-- `_write_trigger_ref`, writer.py 2414-2424. -/
def trigger_ref : WMethod Cls WM :=
  .ref (some "TriggerRef") none

/-- `_write_internal_triggering_point_ref`, writer.py 2426-2434. -/
def internal_triggering_point_ref : WMethod Cls WM :=
  .ref (some "InternalTriggeringPointRef") (some "EVENT-SOURCE-REF")

/-- `_write_rte_event_ref`, writer.py 2436-2444. -/
def rte_event_ref : WMethod Cls WM :=
  .ref (some "RteEventRef") none

/-- `_write_data_type_mapping_set_ref`, writer.py 2446-2454. -/
def data_type_mapping_set_ref : WMethod Cls WM :=
  .ref (some "DataTypeMappingSetRef") none

/-- `_write_argument_data_prototype_ref`, writer.py 2456-2462. -/
def argument_data_prototype_ref : WMethod Cls WM :=
  .ref (some "ArgumentDataPrototypeRef") none

/-- `_write_application_array_element_ref`, writer.py 2464-2470. -/
def application_array_element_ref : WMethod Cls WM :=
  .ref (some "ApplicationArrayElementRef") (some "APPLICATION-ARRAY-ELEMENT-REF")

/-- `_write_application_record_element_ref`, writer.py 2472-2478. -/
def application_record_element_ref : WMethod Cls WM :=
  .ref (some "ApplicationRecordElementRef") none

/-- `_write_text_value_specification`, writer.py 2482-2497. -/
def text_value_specification : WMethod Cls WM :=
  .node (some .TextValueSpecification) (some "TEXT-VALUE-SPECIFICATION") [] true
    (value_specification_group ++
    [opt "value" (.text "VALUE" .str)])

/-- `_write_numerical_value_specification`, writer.py 2499-2514. -/
def numerical_value_specification : WMethod Cls WM :=
  .node (some .NumericalValueSpecification) (some "NUMERICAL-VALUE-SPECIFICATION") [] true
    (value_specification_group ++
    [opt "value" (.text "VALUE" .number)])

/-- `_write_not_available_value_specification`, writer.py 2516-2531. -/
def not_available_value_specification : WMethod Cls WM :=
  .node (some .NotAvailableValueSpecification) (some "NOT-AVAILABLE-VALUE-SPECIFICATION") [] true
    (value_specification_group ++
    [opt "default_pattern" (.text "DEFAULT-PATTERN" .str)])

/-- `_write_array_value_specification`, writer.py 2533-2547. -/
def array_value_specification : WMethod Cls WM :=
  .node (some .ArrayValueSpecification) (some "ARRAY-VALUE-SPECIFICATION") [] true
    (value_specification_group ++ array_value_specification_group)

/-- `_write_record_value_specification`, writer.py 2560-2574. -/
def record_value_specification : WMethod Cls WM :=
  .node (some .RecordValueSpecification) (some "RECORD-VALUE-SPECIFICATION") [] true
    (value_specification_group ++ record_value_specification_group)

/-- `_write_application_value_specification`, writer.py 2587-2599. -/
def application_value_specification : WMethod Cls WM :=
  .node (some .ApplicationValueSpecification) (some "APPLICATION-VALUE-SPECIFICATION") [] true
    (value_specification_group ++ application_specification_group)

/-- `_write_constant_specification`, writer.py 2634-2646. -/
def constant_specification : WMethod Cls WM :=
  .node (some .ConstantSpecification) (some "CONSTANT-SPECIFICATION") uuidAttr false
    (referrable ++ multilanguage_referrable ++ identifiable ++
    constant_specification_group)

/-- `_write_constant_reference`, writer.py 2657-2670. -/
def constant_reference : WMethod Cls WM :=
  .node (some .ConstantReference) (some "CONSTANT-REFERENCE") [] true
    (value_specification_group ++
    [opt "constant_ref" (.meth .constant_ref (some "CONSTANT-REF"))])

/-- `_write_sw_values`, writer.py 2674-2687. -/
def sw_values : WMethod Cls WM :=
  .node (some .SwValues) (some "SW-VALUES-PHYS") [] true
    (sw_values_group)

/-- `_write_value_group`, writer.py 2704-2717. -/
def value_group : WMethod Cls WM :=
  .node (some .ValueGroup) none [] true
    ([opt "label" (.meth .multi_language_long_name (some "LABEL"))] ++ sw_values_group)

/-- `_write_sw_axis_cont`, writer.py 2719-2731. -/
def sw_axis_cont : WMethod Cls WM :=
  .node (some .SwAxisCont) (some "SW-AXIS-CONT") [] true
    (sw_axis_cont_group)

/-- `_write_sw_value_cont`, writer.py 2751-2763. -/
def sw_value_cont : WMethod Cls WM :=
  .node (some .SwValueCont) (some "SW-VALUE-CONT") [] true
    (sw_value_cont_group)

/-- `_write_mode_declaration`, writer.py 2781-2793. -/
def mode_declaration : WMethod Cls WM :=
  .node (some .ModeDeclaration) (some "MODE-DECLARATION") [] false
    (referrable ++ multilanguage_referrable ++ identifiable ++
    [opt "value" (.text "VALUE" .str)])

/-- `_write_mode_error_behavior`, writer.py 2795-2809. -/
def mode_error_behavior : WMethod Cls WM :=
  .node (some .ModeErrorBehavior) none [] true
    ([opt "default_mode_ref" (.meth .mode_declaration_ref (some "DEFAULT-MODE-REF")),
     opt "error_reaction_policy" (.text "ERROR-REACTION-POLICY" .enum)])

/-- `_write_mode_transition`, writer.py 2811-2822. -/
def mode_transition : WMethod Cls WM :=
  .node (some .ModeTransition) (some "MODE-TRANSITION") [] false
    (referrable ++ multilanguage_referrable ++ identifiable ++ mode_transition_group)

/-- `_write_mode_declaration_group`, writer.py 2833-2846. -/
def mode_declaration_group : WMethod Cls WM :=
  .node (some .ModeDeclarationGroup) (some "MODE-DECLARATION-GROUP") uuidAttr false
    (referrable ++ multilanguage_referrable ++ identifiable ++
    mode_declaration_group_data)

/-- `_write_mode_declaration_group_prototype`, writer.py 2871-2885. -/
def mode_declaration_group_prototype : WMethod Cls WM :=
  .node (some .ModeDeclarationGroupPrototype) none uuidAttr false
    (referrable ++ multilanguage_referrable ++ identifiable ++
    mode_declaration_group_prototype_data)

/-- `_write_nv_data_interface`, writer.py 2909-2921. -/
def nv_data_interface : WMethod Cls WM :=
  .node (some .NvDataInterface) (some "NV-DATA-INTERFACE") [] false
    (referrable ++ multilanguage_referrable ++ identifiable ++ port_interface ++
    nv_data_interface_group)

/-- `_write_parameter_interface`, writer.py 2934-2946. -/
def parameter_interface : WMethod Cls WM :=
  .node (some .ParameterInterface) (some "PARAMETER-INTERFACE") [] false
    (referrable ++ multilanguage_referrable ++ identifiable ++ port_interface ++
    parameter_interface_group)

/-- `_write_sender_receiver_interface`, writer.py 2959-2971. -/
def sender_receiver_interface : WMethod Cls WM :=
  .node (some .SenderReceiverInterface) (some "SENDER-RECEIVER-INTERFACE") [] false
    (referrable ++ multilanguage_referrable ++ identifiable ++ port_interface ++
    sender_receiver_interface_group)

/-- `_write_invalidation_policy`, writer.py 2989-3001. -/
def invalidation_policy : WMethod Cls WM :=
  .node (some .InvalidationPolicy) (some "INVALIDATION-POLICY") [] true
    (invalidation_policy_group)

/-- `_write_application_error`, writer.py 3013-3024. -/
def application_error : WMethod Cls WM :=
  .node (some .ApplicationError) (some "APPLICATION-ERROR") [] false
    (referrable ++ multilanguage_referrable ++ identifiable ++ application_error_group)

/-- `_write_client_server_operation`, writer.py 3033-3044. -/
def client_server_operation : WMethod Cls WM :=
  .node (some .ClientServerOperation) (some "CLIENT-SERVER-OPERATION") [] false
    (referrable ++ multilanguage_referrable ++ identifiable ++
    client_server_operation_group)

/-- `_write_client_server_interface`, writer.py 3065-3077. -/
def client_server_interface : WMethod Cls WM :=
  .node (some .ClientServerInterface) (some "CLIENT-SERVER-INTERFACE") [] false
    (referrable ++ multilanguage_referrable ++ identifiable ++ port_interface ++
    client_server_interface_group)

/-- `_write_mode_switch_interface`, writer.py 3094-3107. -/
def mode_switch_interface : WMethod Cls WM :=
  .node (some .ModeSwitchInterface) (some "MODE-SWITCH-INTERFACE") [] false
    (referrable ++ multilanguage_referrable ++ identifiable ++ port_interface ++
    [opt "mode_group" (.meth .mode_declaration_group_prototype (some "MODE-GROUP"))])

/-- `_write_e2e_transformation_com_spec_props`, writer.py 3111-3124. -/
def e2e_transformation_com_spec_props : WMethod Cls WM :=
  .node (some .EndToEndTransformationComSpecProps) (some "END-TO-END-TRANSFORMATION-COM-SPEC-PROPS") [] true
    (describable ++ e2e_transformation_com_spec_props_group)

/-- `_write_e2e_profile_compatibility_props`, writer.py 3166-3178. -/
def e2e_profile_compatibility_props : WMethod Cls WM :=
  .node (some .E2EProfileCompatibilityProps) (some "E-2-E-PROFILE-COMPATIBILITY-PROPS") [] false
    (referrable ++ multilanguage_referrable ++ identifiable ++
    [opt "transit_to_invalid_extended" (.text "TRANSIT-TO-INVALID-EXTENDED" .boolean)])

/-- `_write_mode_switched_ack_request`, writer.py 3182-3195. -/
def mode_switched_ack_request : WMethod Cls WM :=
  .node (some .ModeSwitchedAckRequest) (some "MODE-SWITCHED-ACK") [] true
    ([opt "timeout" (.text "TIMEOUT" .float)])

/-- `_write_mode_switch_sender_com_spec`, writer.py 3197-3209. -/
def mode_switch_sender_com_spec : WMethod Cls WM :=
  .node (some .ModeSwitchSenderComSpec) (some "MODE-SWITCH-SENDER-COM-SPEC") [] true
    (mode_switch_sender_com_spec_group)

/-- `_write_transmission_acknowledgement_request`, writer.py 3226-3239. -/
def transmission_acknowledgement_request : WMethod Cls WM :=
  .node (some .TransmissionAcknowledgementRequest) (some "TRANSMISSION-ACKNOWLEDGE") [] true
    ([opt "timeout" (.text "TIMEOUT" .float)])

/-- `_write_tranmsission_com_spec_props`, writer.py 3241-3258. -/
def tranmsission_com_spec_props : WMethod Cls WM :=
  .node (some .TransmissionComSpecProps) (some "TRANSMISSION-PROPS") [] true
    ([opt "data_update_period" (.text "DATA-UPDATE-PERIOD" .float),
     opt "minimum_send_interval" (.text "MINIMUM-SEND-INTERVAL" .float),
     opt "transmission_mode" (.text "TRANSMISSION-MODE" .enum)])

/-- `_write_queued_sender_com_spec`, writer.py 3278-3290. -/
def queued_sender_com_spec : WMethod Cls WM :=
  .node (some .QueuedSenderComSpec) (some "QUEUED-SENDER-COM-SPEC") [] true
    (sender_com_spec_group)

/-- `_write_non_queued_sender_com_spec`, writer.py 3292-3305. -/
def non_queued_sender_com_spec : WMethod Cls WM :=
  .node (some .NonqueuedSenderComSpec) (some "NONQUEUED-SENDER-COM-SPEC") [] true
    (sender_com_spec_group ++ non_queued_sender_com_spec_group)

/-- `_write_nv_provide_com_spec`, writer.py 3318-3339. -/
def nv_provide_com_spec : WMethod Cls WM :=
  .node (some .NvProvideComSpec) (some "NV-PROVIDE-COM-SPEC") [] true
    ([.one .notNone "ram_block_init_value" (some "RAM-BLOCK-INIT-VALUE") valueSpecAlts (some .notImplemented),
     .one .notNone "rom_block_init_value" (some "ROM-BLOCK-INIT-VALUE") valueSpecAlts (some .notImplemented),
     opt "variable_ref" (.meth .variable_data_prototype_ref (some "VARIABLE-REF"))])

/-- `_write_parameter_provide_com_spec`, writer.py 3341-3358. -/
def parameter_provide_com_spec : WMethod Cls WM :=
  .node (some .ParameterProvideComSpec) (some "PARAMETER-PROVIDE-COM-SPEC") [] true
    ([.one .notNone "init_value" (some "INIT-VALUE") valueSpecAlts (some .notImplemented),
     opt "parameter_ref" (.meth .parameter_data_prototype_ref (some "PARAMETER-REF"))])

/-- `_write_server_com_spec`, writer.py 3360-3380. -/
def server_com_spec : WMethod Cls WM :=
  .node (some .ServerComSpec) (some "SERVER-COM-SPEC") [] true
    ([opt "operation_ref" (.meth .client_server_operation_ref (some "OPERATION-REF")),
     opt "queue_length" (.text "QUEUE-LENGTH" .str),
     list "transformation_com_spec_props" "TRANSFORMATION-COM-SPEC-PROPSS" (.meth .e2e_transformation_com_spec_props none)])

/-- `_write_reception_com_spec_props`, writer.py 3382-3397. -/
def reception_com_spec_props : WMethod Cls WM :=
  .node (some .ReceptionComSpecProps) (some "RECEPTION-PROPS") [] true
    ([opt "data_update_period" (.text "DATA-UPDATE-PERIOD" .float),
     opt "timeout" (.text "TIMEOUT" .float)])

/-- `_write_queued_receiver_com_spec`, writer.py 3429-3443. -/
def queued_receiver_com_spec : WMethod Cls WM :=
  .node (some .QueuedReceiverComSpec) (some "QUEUED-RECEIVER-COM-SPEC") [] true
    (receiver_com_spec_group ++
    [opt "queue_length" (.text "QUEUE-LENGTH" .str)])

/-- `_write_nonqueued_receiver_com_spec`, writer.py 3445-3458. -/
def nonqueued_receiver_com_spec : WMethod Cls WM :=
  .node (some .NonqueuedReceiverComSpec) (some "NONQUEUED-RECEIVER-COM-SPEC") [] true
    (receiver_com_spec_group ++ nonqueued_receiver_com_spec_group)

/-- `_write_nv_require_com_spec`, writer.py 3485-3502. -/
def nv_require_com_spec : WMethod Cls WM :=
  .node (some .NvRequireComSpec) (some "NV-REQUIRE-COM-SPEC") [] true
    ([.one .notNone "init_value" (some "INIT-VALUE") valueSpecAlts (some .notImplemented),
     opt "variable_ref" (.meth .variable_data_prototype_ref (some "VARIABLE-REF"))])

/-- `_write_parameter_require_com_spec`, writer.py 3504-3521. -/
def parameter_require_com_spec : WMethod Cls WM :=
  .node (some .ParameterRequireComSpec) (some "PARAMETER-REQUIRE-COM-SPEC") [] true
    ([.one .notNone "init_value" (some "INIT-VALUE") valueSpecAlts (some .notImplemented),
     opt "parameter_ref" (.meth .parameter_data_prototype_ref (some "PARAMETER-REF"))])

/-- `_write_mode_switch_receiver_com_spec`, writer.py 3523-3541. -/
def mode_switch_receiver_com_spec : WMethod Cls WM :=
  .node (some .ModeSwitchReceiverComSpec) (some "MODE-SWITCH-RECEIVER-COM-SPEC") [] true
    ([opt "enhanced_mode_api" (.text "ENHANCED-MODE-API" .boolean),
     opt "mode_group_ref" (.meth .mode_declaration_group_prototype_ref (some "MODE-GROUP-REF")),
     opt "supports_async" (.text "SUPPORTS-ASYNCHRONOUS-MODE-SWITCH" .boolean)])

/-- `_write_client_com_spec`, writer.py 3543-3564. -/
def client_com_spec : WMethod Cls WM :=
  .node (some .ClientComSpec) (some "CLIENT-COM-SPEC") [] true
    ([opt "e2e_call_respone_timeout" (.text "END-TO-END-CALL-RESPONSE-TIMEOUT" .float),
     opt "operation_ref" (.meth .client_server_operation_ref (some "OPERATION-REF")),
     list "transformation_com_spec_props" "TRANSFORMATION-COM-SPEC-PROPSS" (.meth .e2e_transformation_com_spec_props none)])

/-- `_write_provide_port_prototype`, writer.py 3588-3599. -/
def provide_port_prototype : WMethod Cls WM :=
  .node (some .ProvidePortPrototype) (some "P-PORT-PROTOTYPE") [] false
    (referrable ++ multilanguage_referrable ++ identifiable ++
    provide_port_prototype_group)

/-- `_write_require_port_prototype`, writer.py 3613-3624. -/
def require_port_prototype : WMethod Cls WM :=
  .node (some .RequirePortPrototype) (some "R-PORT-PROTOTYPE") [] false
    (referrable ++ multilanguage_referrable ++ identifiable ++
    require_port_prototype_group)

/-- `_write_pr_port_prototype`, writer.py 3640-3651. -/
def pr_port_prototype : WMethod Cls WM :=
  .node (some .PRPortPrototype) (some "PR-PORT-PROTOTYPE") [] false
    (referrable ++ multilanguage_referrable ++ identifiable ++ pr_port_prototype_group)

/-- `_write_application_software_component_type`, writer.py 3704-3716. -/
def application_software_component_type : WMethod Cls WM :=
  .node (some .ApplicationSoftwareComponentType) (some "APPLICATION-SW-COMPONENT-TYPE") [] false
    (referrable ++ multilanguage_referrable ++ identifiable ++ sw_component_type ++
    atomic_sw_component_type)

/-- `_write_sw_component_prototype`, writer.py 3718-3730. -/
def sw_component_prototype : WMethod Cls WM :=
  .node (some .SwComponentPrototype) (some "SW-COMPONENT-PROTOTYPE") [] false
    (referrable ++ multilanguage_referrable ++ identifiable ++
    [opt "type_ref" (.meth .sw_component_type_ref (some "TYPE-TREF"))])

/-- `_write_port_in_composition_type_instance_ref`, writer.py 3732-3759. -/
def port_in_composition_type_instance_ref (tag : Option String) : WMethod Cls WM :=
  match tag with
  | some "PROVIDER-IREF" | some "P-PORT-IN-COMPOSITION-INSTANCE-REF" =>
    .node (some .PortInCompositionTypeInstanceRef) none [] true
      ([opt "component_ref" (.meth .sw_component_prototype_ref (some "CONTEXT-COMPONENT-REF")),
       .one .notNone "port_ref" none
        [(.dest ["ABSTRACT_PROVIDED_PORT_PROTOTYPE", "P_PORT_PROTOTYPE", "PR_PORT_PROTOTYPE"], .meth .port_prototype_ref (some "TARGET-P-PORT-REF"))] (some .assertionError)])
  | some "REQUESTER-IREF" | some "R-PORT-IN-COMPOSITION-INSTANCE-REF" =>
    .node (some .PortInCompositionTypeInstanceRef) none [] true
      ([opt "component_ref" (.meth .sw_component_prototype_ref (some "CONTEXT-COMPONENT-REF")),
       .one .notNone "port_ref" none
        [(.dest ["ABSTRACT_REQUIRED_PORT_PROTOTYPE", "R_PORT_PROTOTYPE", "PR_PORT_PROTOTYPE"], .meth .port_prototype_ref (some "TARGET-R-PORT-REF"))] (some .assertionError)])
  | _ => .node (some .PortInCompositionTypeInstanceRef) none [] true
      ([opt "component_ref" (.meth .sw_component_prototype_ref (some "CONTEXT-COMPONENT-REF"))])

/-- `_write_assembly_sw_connector`, writer.py 3761-3775. -/
def assembly_sw_connector : WMethod Cls WM :=
  .node (some .AssemblySwConnector) (some "ASSEMBLY-SW-CONNECTOR") [] false
    (referrable ++ multilanguage_referrable ++ identifiable ++
    [opt "provide_port" (.meth .port_in_composition_type_instance_ref (some "PROVIDER-IREF")),
     opt "require_port" (.meth .port_in_composition_type_instance_ref (some "REQUESTER-IREF"))])

/-- `_write_delegation_sw_connector`, writer.py 3777-3797. -/
def delegation_sw_connector : WMethod Cls WM :=
  .node (some .DelegationSwConnector) (some "DELEGATION-SW-CONNECTOR") [] false
    (referrable ++ multilanguage_referrable ++ identifiable ++
    [.one .notNone "inner_port" (some "INNER-PORT-IREF")
      [(.exact .InnerProvidedPortInstanceRef, .meth .port_in_composition_type_instance_ref (some "P-PORT-IN-COMPOSITION-INSTANCE-REF")),
       (.exact .InnerRequiredPortInstanceRef, .meth .port_in_composition_type_instance_ref (some "R-PORT-IN-COMPOSITION-INSTANCE-REF"))] none,
     opt "outer_port" (.meth .port_prototype_ref (some "OUTER-PORT-REF"))])

/-- `_write_passthrough_sw_connector`, writer.py 3799-3813. -/
def passthrough_sw_connector : WMethod Cls WM :=
  .node (some .PassThroughSwConnector) (some "PASS-THROUGH-SW-CONNECTOR") [] false
    (referrable ++ multilanguage_referrable ++ identifiable ++
    [opt "provide_port" (.meth .port_prototype_ref (some "PROVIDED-OUTER-PORT-REF")),
     opt "require_port" (.meth .port_prototype_ref (some "REQUIRED-OUTER-PORT-REF"))])

/-- `_write_composition_sw_component_type`, writer.py 3815-3827. -/
def composition_sw_component_type : WMethod Cls WM :=
  .node (some .CompositionSwComponentType) (some "COMPOSITION-SW-COMPONENT-TYPE") [] false
    (referrable ++ multilanguage_referrable ++ identifiable ++ sw_component_type ++
    composition_sw_component_type_group)

/-- `_write_swc_implementation`, writer.py 3849-3861. -/
def swc_implementation : WMethod Cls WM :=
  .node (some .SwcImplementation) (some "SWC-IMPLEMENTATION") [] false
    (referrable ++ multilanguage_referrable ++ identifiable ++ implementtion ++
    swc_implementation_group)

/-- `_write_p_mode_group_in_atomic_swc_instance_ref`, writer.py 3873-3891. -/
def p_mode_group_in_atomic_swc_instance_ref : WMethod Cls WM :=
  .node (some .PModeGroupInAtomicSwcInstanceRef) none [] true
    ([opt "context_port" (.meth .abstract_provided_port_prototype_ref (some "CONTEXT-P-PORT-REF")),
     opt "target_mode_group" (.meth .mode_declaration_group_prototype_ref (some "TARGET-MODE-GROUP-REF"))])

/-- `_write_p_operation_in_atomic_swc_instance_ref`, writer.py 3893-3911. -/
def p_operation_in_atomic_swc_instance_ref : WMethod Cls WM :=
  .node (some .POperationInAtomicSwcInstanceRef) (some "OPERATION-IREF") [] true
    ([opt "context_port" (.meth .abstract_provided_port_prototype_ref (some "CONTEXT-P-PORT-REF")),
     opt "target_provided_operation" (.meth .client_server_operation_ref (some "TARGET-PROVIDED-OPERATION-REF"))])

/-- `_write_p_trigger_in_atomic_swc_instance_ref`, writer.py 3913-3931. -/
def p_trigger_in_atomic_swc_instance_ref : WMethod Cls WM :=
  .node (some .PTriggerInAtomicSwcTypeInstanceRef) none [] true
    ([opt "context_port" (.meth .abstract_provided_port_prototype_ref (some "CONTEXT-P-PORT-REF")),
     opt "target_trigger" (.meth .trigger_ref (some "TARGET-TRIGGER-REF"))])

/-- `_write_r_mode_in_atomic_swc_instance_ref`, writer.py 3933-3950. -/
def r_mode_in_atomic_swc_instance_ref : WMethod Cls WM :=
  .node (some .RModeInAtomicSwcInstanceRef) none [] true
    ([opt "context_port" (.meth .abstract_required_port_prototype_ref (some "CONTEXT-PORT-REF")),
     opt "context_mode_declaration_group_prototype" (.meth .mode_declaration_group_prototype_ref (some "CONTEXT-MODE-DECLARATION-GROUP-PROTOTYPE-REF")),
     opt "target_mode_declaration" (.meth .mode_declaration_ref (some "TARGET-MODE-DECLARATION-REF"))])

/-- `_write_r_mode_group_in_atomic_swc_instance_ref`, writer.py 3952-3968. -/
def r_mode_group_in_atomic_swc_instance_ref : WMethod Cls WM :=
  .node (some .RModeGroupInAtomicSwcInstanceRef) (some "R-MODE-GROUP-IN-ATOMIC-SWC-INSTANCE-REF") [] true
    ([opt "context_port" (.meth .abstract_required_port_prototype_ref (some "CONTEXT-R-PORT-REF")),
     opt "target_mode_group" (.meth .mode_declaration_group_prototype_ref (some "TARGET-MODE-GROUP-REF"))])

/-- `_write_r_operation_in_atomic_swc_instance_ref`, writer.py 3970-3988. -/
def r_operation_in_atomic_swc_instance_ref : WMethod Cls WM :=
  .node (some .ROperationInAtomicSwcInstanceRef) (some "OPERATION-IREF") [] true
    ([opt "context_port" (.meth .abstract_required_port_prototype_ref (some "CONTEXT-R-PORT-REF")),
     opt "target_required_operation" (.meth .client_server_operation_ref (some "TARGET-REQUIRED-OPERATION-REF"))])

/-- `_write_r_variable_in_atomic_swc_instance_ref`, writer.py 3990-4007. -/
def r_variable_in_atomic_swc_instance_ref : WMethod Cls WM :=
  .node (some .RVariableInAtomicSwcInstanceRef) (some "DATA-IREF") [] true
    ([opt "context_port" (.meth .abstract_required_port_prototype_ref (some "CONTEXT-R-PORT-REF")),
     opt "target_data_element" (.meth .variable_data_prototype_ref (some "TARGET-DATA-ELEMENT-REF"))])

/-- `_write_r_trigger_in_atomic_swc_instance_ref`, writer.py 4009-4026. -/
def r_trigger_in_atomic_swc_instance_ref : WMethod Cls WM :=
  .node (some .RTriggerInAtomicSwcInstanceRef) none [] true
    ([opt "context_port" (.meth .abstract_required_port_prototype_ref (some "CONTEXT-R-PORT-REF")),
     opt "target_trigger" (.meth .trigger_ref (some "TARGET-TRIGGER-REF"))])

/-- `_write_variable_in_impl_data_instance_ref`, writer.py 4030-4055. -/
def variable_in_impl_data_instance_ref : WMethod Cls WM :=
  .node (some .ArVariableInImplementationDataInstanceRef) none [] true
    ([opt "port_prototype_ref" (.meth .port_prototype_ref (some "PORT-PROTOTYPE-REF")),
     opt "root_variable_data_prototype_ref" (.meth .variable_data_prototype_ref (some "ROOT-VARIABLE-DATA-PROTOTYPE-REF")),
     list "context_data_prototype_refs" "CONTEXT-DATA-PROTOTYPE-REFS" (.meth .abstract_impl_data_type_element_ref (some "CONTEXT-DATA-PROTOTYPE-REF")),
     opt "target_data_prototype_ref" (.meth .abstract_impl_data_type_element_ref (some "TARGET-DATA-PROTOTYPE-REF"))])

/-- `_write_variable_in_atomic_swc_type_instance_ref`, writer.py 4057-4080. -/
def variable_in_atomic_swc_type_instance_ref : WMethod Cls WM :=
  .node (some .VariableInAtomicSWCTypeInstanceRef) (some "AUTOSAR-VARIABLE-IREF") [] true
    ([opt "port_prototype_ref" (.meth .port_prototype_ref (some "PORT-PROTOTYPE-REF")),
     opt "root_variable_data_prototype_ref" (.meth .variable_data_prototype_ref (some "ROOT-VARIABLE-DATA-PROTOTYPE-REF")),
     .many .truthy "context_data_prototype_refs" none
      [(.any, .meth .appl_composite_element_data_proto_ref (some "CONTEXT-DATA-PROTOTYPE-REF"))] none,
     opt "target_data_prototype_ref" (.meth .data_prototype_ref (some "TARGET-DATA-PROTOTYPE-REF"))])

/-- `_write_autosar_variable_ref`, writer.py 4082-4104. -/
def autosar_variable_ref : WMethod Cls WM :=
  .node (some .AutosarVariableRef) none [] true
    ([opt "ar_variable_in_impl_datatype" (.meth .variable_in_impl_data_instance_ref (some "AUTOSAR-VARIABLE-IN-IMPL-DATATYPE")),
     opt "ar_variable_iref" (.meth .variable_in_atomic_swc_type_instance_ref none),
     opt "local_variable_ref" (.meth .variable_data_prototype_ref (some "LOCAL-VARIABLE-REF"))])

/-- `_write_variable_access`, writer.py 4106-4120. -/
def variable_access : WMethod Cls WM :=
  .node (some .VariableAccess) none [] false
    (referrable ++ multilanguage_referrable ++ identifiable ++
    [opt "accessed_variable" (.meth .autosar_variable_ref (some "ACCESSED-VARIABLE")),
     opt "scope" (.text "SCOPE" .enum)])

/-- `_write_runnable_entity_argument`, writer.py 4122-4135. -/
def runnable_entity_argument : WMethod Cls WM :=
  .node (some .RunnableEntityArgument) (some "RUNNABLE-ENTITY-ARGUMENT") [] true
    ([opt "symbol" (.text "SYMBOL" .plain)])

/-- `_write_executable_entity_activation_reason`, writer.py 4137-4149. -/
def executable_entity_activation_reason : WMethod Cls WM :=
  .node (some .ExecutableEntityActivationReason) (some "EXECUTABLE-ENTITY-ACTIVATION-REASON") [] false
    (referrable ++ implementation_props ++
    [opt "bit_position" (.text "BIT-POSITION" .str)])

/-- `_write_exclusive_area_ref_conditional`, writer.py 4151-4165. -/
def exclusive_area_ref_conditional : WMethod Cls WM :=
  .node (some .ExclusiveAreaRefConditional) (some "EXCLUSIVE-AREA-REF-CONDITIONAL") [] true
    ([opt "exclusive_area" (.meth .exclusive_area_ref (some "EXCLUSIVE-AREA-REF"))])

/-- `_write_async_server_call_point`, writer.py 4183-4195. -/
def async_server_call_point : WMethod Cls WM :=
  .node (some .AsynchronousServerCallPoint) (some "ASYNCHRONOUS-SERVER-CALL-POINT") [] false
    (referrable ++ multilanguage_referrable ++ identifiable ++ abstract_access_point ++
    server_call_point)

/-- `_write_sync_server_call_point`, writer.py 4197-4212. -/
def sync_server_call_point : WMethod Cls WM :=
  .node (some .SynchronousServerCallPoint) (some "SYNCHRONOUS-SERVER-CALL-POINT") [] false
    (referrable ++ multilanguage_referrable ++ identifiable ++ abstract_access_point ++
    server_call_point ++
    [opt "called_from_within_exclusive_area" (.meth .exclusive_area_nesting_order_ref (some "CALLED-FROM-WITHIN-EXCLUSIVE-AREA-REF"))])

/-- `_write_async_server_call_result_point`, writer.py 4214-4226. -/
def async_server_call_result_point : WMethod Cls WM :=
  .node (some .AsynchronousServerCallResultPoint) (some "ASYNCHRONOUS-SERVER-CALL-RESULT-POINT") [] false
    (referrable ++ multilanguage_referrable ++ identifiable ++ abstract_access_point ++
    async_server_call_result_point_group)

/-- `_write_external_triggering_point_ident`, writer.py 4235-4246. -/
def external_triggering_point_ident : WMethod Cls WM :=
  .node (some .ExternalTriggeringPointIdent) (some "IDENT") [] false
    (referrable ++ multilanguage_referrable ++ identifiable ++ abstract_access_point)

/-- `_write_external_triggering_point`, writer.py 4248-4263. -/
def external_triggering_point : WMethod Cls WM :=
  .node (some .ExternalTriggeringPoint) (some "EXTERNAL-TRIGGERING-POINT") [] true
    ([opt "ident" (.meth .external_triggering_point_ident none),
     opt "trigger" (.meth .p_trigger_in_atomic_swc_instance_ref (some "TRIGGER-IREF"))])

/-- `_write_internal_triggering_point`, writer.py 4265-4278. -/
def internal_triggering_point : WMethod Cls WM :=
  .node (some .InternalTriggeringPoint) (some "INTERNAL-TRIGGERING-POINT") [] false
    (referrable ++ multilanguage_referrable ++ identifiable ++ abstract_access_point ++
    [opt "sw_impl_policy" (.text "SW-IMPL-POLICY" .enum)])

/-- `_write_mode_access_point_ident`, writer.py 4280-4291. -/
def mode_access_point_ident : WMethod Cls WM :=
  .node (some .ModeAccessPointIdent) (some "IDENT") [] false
    (referrable ++ multilanguage_referrable ++ identifiable ++ abstract_access_point)

/-- `_write_mode_access_point`, writer.py 4293-4316. -/
def mode_access_point : WMethod Cls WM :=
  .node (some .ModeAccessPoint) (some "MODE-ACCESS-POINT") [] true
    ([opt "ident" (.meth .mode_access_point_ident none),
     .one .notNone "mode_group" (some "MODE-GROUP-IREF")
      [(.inst .PModeGroupInAtomicSwcInstanceRef, .meth .p_mode_group_in_atomic_swc_instance_ref (some "P-MODE-GROUP-IN-ATOMIC-SWC-INSTANCE-REF")),
       (.inst .RModeGroupInAtomicSwcInstanceRef, .meth .r_mode_group_in_atomic_swc_instance_ref none)] (some .typeError)])

/-- `_write_mode_switch_point`, writer.py 4318-4331. -/
def mode_switch_point : WMethod Cls WM :=
  .node (some .ModeSwitchPoint) (some "MODE-SWITCH-POINT") [] false
    (referrable ++ multilanguage_referrable ++ identifiable ++ abstract_access_point ++
    [opt "mode_group" (.meth .p_mode_group_in_atomic_swc_instance_ref (some "MODE-GROUP-IREF"))])

/-- `_write_parameter_in_atomic_swc_type_instance_ref`, writer.py 4333-4355. -/
def parameter_in_atomic_swc_type_instance_ref : WMethod Cls WM :=
  .node (some .ParameterInAtomicSwcTypeInstanceRef) (some "AUTOSAR-PARAMETER-IREF") [] true
    ([opt "port_prototype" (.meth .port_prototype_ref (some "PORT-PROTOTYPE-REF")),
     opt "root_parameter_data_prototype" (.meth .data_prototype_ref (some "ROOT-PARAMETER-DATA-PROTOTYPE-REF")),
     opt "context_data_prototype" (.meth .appl_composite_element_data_proto_ref (some "CONTEXT-DATA-PROTOTYPE-REF")),
     opt "target_data_prototype" (.meth .data_prototype_ref (some "TARGET-DATA-PROTOTYPE-REF"))])

/-- `_write_autosar_parameter_ref`, writer.py 4357-4371. -/
def autosar_parameter_ref : WMethod Cls WM :=
  .node (some .AutosarParameterRef) none [] true
    ([opt "autosar_parameter" (.meth .parameter_in_atomic_swc_type_instance_ref none),
     opt "local_parameter" (.meth .data_prototype_ref (some "LOCAL-PARAMETER-REF"))])

/-- `_write_parameter_access`, writer.py 4373-4385. -/
def parameter_access : WMethod Cls WM :=
  .node (some .ParameterAccess) (some "PARAMETER-ACCESS") [] false
    (referrable ++ multilanguage_referrable ++ identifiable ++ abstract_access_point ++
    parameter_access_group)

/-- `_write_wait_point`, writer.py 4396-4407. -/
def wait_point : WMethod Cls WM :=
  .node (some .WaitPoint) (some "WAIT-POINT") [] false
    (referrable ++ multilanguage_referrable ++ identifiable ++ wait_point_group)

/-- `_write_runnable_entity`, writer.py 4468-4482. -/
def runnable_entity : WMethod Cls WM :=
  .node (some .RunnableEntity) (some "RUNNABLE-ENTITY") [] false
    (referrable ++ multilanguage_referrable ++ identifiable ++ executable_entity ++
    runnable_entity_group)

/-- `_write_async_server_call_returns_event`, writer.py 4588-4601. -/
def async_server_call_returns_event : WMethod Cls WM :=
  .node (some .AsynchronousServerCallReturnsEvent) (some "ASYNCHRONOUS-SERVER-CALL-RETURNS-EVENT") [] false
    (referrable ++ multilanguage_referrable ++ identifiable ++ rte_event_group ++
    [opt "event_source" (.meth .async_server_call_result_point_ref none)])

/-- `_write_background_event`, writer.py 4603-4614. -/
def background_event : WMethod Cls WM :=
  .node (some .BackgroundEvent) (some "BACKGROUND-EVENT") [] false
    (referrable ++ multilanguage_referrable ++ identifiable ++ rte_event_group)

/-- `_write_data_receive_error_event`, writer.py 4616-4629. -/
def data_receive_error_event : WMethod Cls WM :=
  .node (some .DataReceiveErrorEvent) (some "DATA-RECEIVE-ERROR-EVENT") [] false
    (referrable ++ multilanguage_referrable ++ identifiable ++ rte_event_group ++
    [opt "data" (.meth .r_variable_in_atomic_swc_instance_ref none)])

/-- `_write_data_received_event`, writer.py 4631-4644. -/
def data_received_event : WMethod Cls WM :=
  .node (some .DataReceivedEvent) (some "DATA-RECEIVED-EVENT") [] false
    (referrable ++ multilanguage_referrable ++ identifiable ++ rte_event_group ++
    [opt "data" (.meth .r_variable_in_atomic_swc_instance_ref none)])

/-- `_write_data_send_completed_event`, writer.py 4646-4659. -/
def data_send_completed_event : WMethod Cls WM :=
  .node (some .DataSendCompletedEvent) (some "DATA-SEND-COMPLETED-EVENT") [] false
    (referrable ++ multilanguage_referrable ++ identifiable ++ rte_event_group ++
    [opt "event_source" (.meth .variable_access_ref (some "EVENT-SOURCE-REF"))])

/-- `_write_data_write_completed_event`, writer.py 4661-4674. -/
def data_write_completed_event : WMethod Cls WM :=
  .node (some .DataWriteCompletedEvent) (some "DATA-WRITE-COMPLETED-EVENT") [] false
    (referrable ++ multilanguage_referrable ++ identifiable ++ rte_event_group ++
    [opt "event_source" (.meth .variable_access_ref (some "EVENT-SOURCE-REF"))])

/-- `_write_external_trigger_occured_event`, writer.py 4676-4689. -/
def external_trigger_occured_event : WMethod Cls WM :=
  .node (some .ExternalTriggerOccurredEvent) (some "EXTERNAL-TRIGGER-OCCURRED-EVENT") [] false
    (referrable ++ multilanguage_referrable ++ identifiable ++ rte_event_group ++
    [opt "trigger" (.meth .r_trigger_in_atomic_swc_instance_ref (some "TRIGGER-IREF"))])

/-- `_write_init_event`, writer.py 4691-4702. -/
def init_event : WMethod Cls WM :=
  .node (some .InitEvent) (some "INIT-EVENT") [] false
    (referrable ++ multilanguage_referrable ++ identifiable ++ rte_event_group)

/-- `_write_internal_trigger_occured_event`, writer.py 4704-4717. -/
def internal_trigger_occured_event : WMethod Cls WM :=
  .node (some .InternalTriggerOccurredEvent) (some "INTERNAL-TRIGGER-OCCURRED-EVENT") [] false
    (referrable ++ multilanguage_referrable ++ identifiable ++ rte_event_group ++
    [opt "event_source" (.meth .internal_triggering_point_ref none)])

/-- `_write_mode_switched_ack_event`, writer.py 4719-4732. -/
def mode_switched_ack_event : WMethod Cls WM :=
  .node (some .ModeSwitchedAckEvent) (some "MODE-SWITCHED-ACK-EVENT") [] false
    (referrable ++ multilanguage_referrable ++ identifiable ++ rte_event_group ++
    [opt "event_source" (.meth .mode_switch_point_ref none)])

/-- `_write_operation_invoked_event`, writer.py 4734-4747. -/
def operation_invoked_event : WMethod Cls WM :=
  .node (some .OperationInvokedEvent) (some "OPERATION-INVOKED-EVENT") [] false
    (referrable ++ multilanguage_referrable ++ identifiable ++ rte_event_group ++
    [opt "operation" (.meth .p_operation_in_atomic_swc_instance_ref none)])

/-- `_write_swc_mode_manager_error_event`, writer.py 4749-4762. -/
def swc_mode_manager_error_event : WMethod Cls WM :=
  .node (some .SwcModeManagerErrorEvent) (some "SWC-MODE-MANAGER-ERROR-EVENT") [] false
    (referrable ++ multilanguage_referrable ++ identifiable ++ rte_event_group ++
    [opt "mode_group" (.meth .p_mode_group_in_atomic_swc_instance_ref (some "MODE-GROUP-IREF"))])

/-- `_write_swc_mode_switch_event`, writer.py 4764-4776. -/
def swc_mode_switch_event : WMethod Cls WM :=
  .node (some .SwcModeSwitchEvent) (some "SWC-MODE-SWITCH-EVENT") [] false
    (referrable ++ multilanguage_referrable ++ identifiable ++ rte_event_group ++
    swc_mode_switch_event_group)

/-- `_write_timing_event`, writer.py 4793-4808. -/
def timing_event : WMethod Cls WM :=
  .node (some .TimingEvent) (some "TIMING-EVENT") [] false
    (referrable ++ multilanguage_referrable ++ identifiable ++ rte_event_group ++
    [opt "offset" (.text "OFFSET" .number),
     opt "period" (.text "PERIOD" .number)])

/-- `_write_transformer_hard_error_event`, writer.py 4810-4822. -/
def transformer_hard_error_event : WMethod Cls WM :=
  .node (some .TransformerHardErrorEvent) (some "TRANSFORMER-HARD-ERROR-EVENT") [] false
    (referrable ++ multilanguage_referrable ++ identifiable ++ rte_event_group ++
    transformer_hard_error_event_group)

/-- `_write_port_defined_argument_value`, writer.py 4832-4849. -/
def port_defined_argument_value : WMethod Cls WM :=
  .node (some .PortDefinedArgumentValue) (some "PORT-DEFINED-ARGUMENT-VALUE") [] true
    ([.one .notNone "value" (some "VALUE") valueSpecAlts (some .notImplemented),
     opt "value_type" (.meth .impl_data_type_ref (some "VALUE-TYPE-TREF"))])

/-- `_write_communication_buffer_locking`, writer.py 4851-4864. -/
def communication_buffer_locking : WMethod Cls WM :=
  .node (some .CommunicationBufferLocking) (some "COMMUNICATION-BUFFER-LOCKING") [] true
    ([opt "support_buffer_locking" (.text "SUPPORT-BUFFER-LOCKING" .enum)])

/-- `_write_port_api_option`, writer.py 4866-4878. -/
def port_api_option : WMethod Cls WM :=
  .node (some .PortApiOption) (some "PORT-API-OPTION") [] true
    (port_api_option_group)

/-- `_write_exclusive_area`, writer.py 4909-4918. -/
def exclusive_area : WMethod Cls WM :=
  .node none (some "EXCLUSIVE-AREA") [] false
    (referrable ++ multilanguage_referrable ++ identifiable)

/-- `_write_swc_internal_behavior`, writer.py 4920-4931. -/
def swc_internal_behavior : WMethod Cls WM :=
  .node none (some "SWC-INTERNAL-BEHAVIOR") [] false
    (referrable ++ multilanguage_referrable ++ identifiable ++ internal_behavior_group ++
    swc_internal_behavior_group)

end Verif.Codec.Writer
