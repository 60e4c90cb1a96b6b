import Verif.Codec.RejectSpec
/-
Where in an element each attribute of an object is found (C54): a table from the classes and
attributes of src/autosar/xml/element.py to the tags of the AUTOSAR schema.  For 484 of the rows
the tag is what the comment beside the attribute in element.py says; the comment is misprinted
for 12 of them (see DESIGN.md), and the attributes of `named` have none.  Nothing here refers to
the methods of writer and reader.
-/
namespace Verif.Codec.Map
open Verif.Py Verif.Enums Verif.Num Verif.Xml Verif.Xml.Spec Verif.Codec Verif.Codec.Spec
open Verif.Ref (RefObj)

/-- Where an attribute is found in an element. -/
inductive Place where
  /-- XML attribute of the element -/
  | attribute (name : String)
  /-- the text of the element itself -/
  | content
  /-- the text of the first child with this tag -/
  | text (tag : String)
  /-- the same, but an empty child counts as the text "None" -/
  | shown (tag : String)
  /-- the first child with this tag -/
  | child (tag : String)
  /-- the first element, if it has one of these tags, in the first child with this tag -/
  | inner (tag : String) (tags : List String)
  /-- the first element with the second tag in the first child with the first tag -/
  | innerTag (tag inside : String)
  /-- list: the elements with these tags (no tags: all) in the first child with this tag -/
  | list (tag : String) (tags : List String)
  /-- list: the children with these tags -/
  | direct (tags : List String)
  /-- the only child with one of these tags; those of `texts` count if there is text in them -/
  | oneOf (tags texts : List String)
  /-- mixed content: text, and the children with these tags.  Only the leading text and the
  children are described: what becomes of further text is the subject of C25 -/
  | pieces (tags : List String)
deriving DecidableEq, Repr

/-- The attributes every identifiable object has. -/
def named : List (String × Place) :=
  [("name", .text "SHORT-NAME"), ("long_name", .child "LONG-NAME"), ("uuid", .attribute "UUID"),
   ("desc", .child "DESC"), ("category", .text "CATEGORY")]

/-- The value specifications. -/
def valueTags : List String :=
  ["TEXT-VALUE-SPECIFICATION", "NUMERICAL-VALUE-SPECIFICATION",
   "NOT-AVAILABLE-VALUE-SPECIFICATION", "ARRAY-VALUE-SPECIFICATION", "RECORD-VALUE-SPECIFICATION",
   "APPLICATION-VALUE-SPECIFICATION", "CONSTANT-REFERENCE"]

/-- The communication specifications of provided ports. -/
def providedTags : List String :=
  ["QUEUED-SENDER-COM-SPEC", "MODE-SWITCH-SENDER-COM-SPEC", "NONQUEUED-SENDER-COM-SPEC",
   "NV-PROVIDE-COM-SPEC", "PARAMETER-PROVIDE-COM-SPEC", "SERVER-COM-SPEC"]

/-- The communication specifications of required ports. -/
def requiredTags : List String :=
  ["QUEUED-RECEIVER-COM-SPEC", "NONQUEUED-RECEIVER-COM-SPEC", "NV-REQUIRE-COM-SPEC",
   "PARAMETER-REQUIRE-COM-SPEC", "MODE-SWITCH-RECEIVER-COM-SPEC", "CLIENT-COM-SPEC"]

/-- Where the attributes of the objects of a class are found.  Six attributes that are never read
are not in the table (`unread`). -/
def parts : Cls → List (String × Place)
  | .DataFilter =>
    [("data_filter_type", .child "DATA-FILTER-TYPE"), ("mask", .child "MASK"),
     ("max_val", .child "MAX"), ("min_val", .child "MIN"), ("offset", .child "OFFSET"),
     ("period", .child "PERIOD"), ("x", .child "X")]
  | .AutosarEngineeringObject =>
    [("label", .text "SHORT-LABEL"), ("category", .text "CATEGORY")]
  | .Code => named ++
    [("artifact_descriptors", .list "ARTIFACT-DESCRIPTORS" ["AUTOSAR-ENGINEERING-OBJECT"])]
  | .Break => []
  | .EmphasisText =>
    [("color", .attribute "COLOR"), ("font", .attribute "FONT"), ("type", .attribute "TYPE"),
     ("elements", .content)]
  | .IndexEntry =>
    [("text", .content)]
  | .TechnicalTerm =>
    [("tex_render", .attribute "TEX-RENDER"), ("type", .attribute "TYPE"), ("text", .content)]
  | .Subscript =>
    [("text", .content)]
  | .Superscript =>
    [("text", .content)]
  | .LanguageLongName =>
    [("language", .attribute "L"), ("parts", .pieces ["TT"])]
  | .MultilanguageLongName =>
    [("elements", .direct ["L-4"])]
  | .LanguageOverviewParagraph =>
    [("language", .attribute "L"), ("parts", .pieces ["TT"])]
  | .MultiLanguageOverviewParagraph =>
    [("elements", .direct ["L-2"])]
  | .LanguageParagraph =>
    [("language", .attribute "L"), ("parts", .pieces ["TT"])]
  | .MultiLanguageParagraph =>
    [("semantic_information", .attribute "SI"), ("view", .attribute "VIEW"),
     ("page_break", .attribute "BREAK"), ("keep_with_previous", .attribute "KEEP-WITH-PREVIOUS"),
     ("help_entry", .attribute "HELP-ENTRY"), ("elements", .direct ["L-1"])]
  | .LanguageVerbatim =>
    [("language", .attribute "L"), ("parts", .pieces ["TT"])]
  | .MultiLanguageVerbatim =>
    [("semantic_information", .attribute "SI"), ("view", .attribute "VIEW"),
     ("page_break", .attribute "BREAK"), ("keep_with_previous", .attribute "KEEP-WITH-PREVIOUS"),
     ("allow_break", .attribute "ALLOW-BREAK"), ("float", .attribute "FLOAT"),
     ("help_entry", .attribute "HELP-ENTRY"), ("page_wide", .attribute "PGWIDE"),
     ("elements", .direct ["L-5"])]
  | .SingleLanguageUnitNames =>
    [("parts", .pieces ["SUB", "SUP"])]
  | .DocumentationBlock =>
    [("elements", .direct ["P", "VERBATIM"])]
  | .Annotation =>
    [("label", .child "LABEL"), ("origin", .text "ANNOTATION-ORIGIN"),
     ("text", .child "ANNOTATION-TEXT")]
  | .CompuRational =>
    [("numerator", .list "COMPU-NUMERATOR" ["V"]),
     ("denominator", .list "COMPU-DENOMINATOR" ["V"])]
  | .CompuConst =>
    [("value", .oneOf ["V", "VT"] ["VT"])]
  | .CompuScale =>
    [("label", .text "SHORT-LABEL"), ("symbol", .text "SYMBOL"), ("desc", .child "DESC"),
     ("mask", .child "MASK"), ("lower_limit", .child "LOWER-LIMIT"),
     ("upper_limit", .child "UPPER-LIMIT"), ("inverse_value", .child "COMPU-INVERSE-VALUE"),
     ("content", .oneOf ["COMPU-CONST", "COMPU-RATIONAL-COEFFS"] [])]
  | .Computation =>
    [("compu_scales", .list "COMPU-SCALES" ["COMPU-SCALE"]),
     ("default_value", .child "COMPU-DEFAULT-VALUE")]
  | .CompuMethod => named ++
    [("display_format", .text "DISPLAY-FORMAT"), ("unit_ref", .child "UNIT-REF"),
     ("int_to_phys", .child "COMPU-INTERNAL-TO-PHYS"),
     ("phys_to_int", .child "COMPU-PHYS-TO-INTERNAL")]
  | .ScaleConstraint =>
    [("label", .text "SHORT-LABEL"), ("desc", .child "DESC"),
     ("lower_limit", .child "LOWER-LIMIT"), ("upper_limit", .child "UPPER-LIMIT")]
  | .InternalConstraint =>
    [("lower_limit", .child "LOWER-LIMIT"), ("upper_limit", .child "UPPER-LIMIT"),
     ("scale_constrs", .list "SCALE-CONSTRS" ["SCALE-CONSTR"]),
     ("max_gradient", .child "MAX-GRADIENT"), ("max_diff", .child "MAX-DIFF"),
     ("monotony", .child "MONOTONY")]
  | .PhysicalConstraint =>
    [("lower_limit", .child "LOWER-LIMIT"), ("upper_limit", .child "UPPER-LIMIT"),
     ("scale_constrs", .list "SCALE-CONSTRS" ["SCALE-CONSTR"]),
     ("max_gradient", .child "MAX-GRADIENT"), ("max_diff", .child "MAX-DIFF"),
     ("monotony", .child "MONOTONY"), ("unit_ref", .child "UNIT-REF")]
  | .DataConstraintRule =>
    [("level", .child "CONSTR-LEVEL"), ("physical", .child "PHYS-CONSTRS"),
     ("internal", .child "INTERNAL-CONSTRS")]
  | .DataConstraint => named ++
    [("rules", .list "DATA-CONSTR-RULES" ["DATA-CONSTR-RULE"])]
  | .Unit => named ++
    [("display_name", .child "DISPLAY-NAME"), ("factor", .child "FACTOR-SI-TO-UNIT"),
     ("offset", .child "OFFSET-SI-TO-UNIT"),
     ("physical_dimension_ref", .child "PHYSICAL-DIMENSION-REF")]
  | .SwBaseType => named ++
    [("size", .child "BASE-TYPE-SIZE"), ("max_size", .child "MAX-BASE-TYPE-SIZE"),
     ("encoding", .shown "BASE-TYPE-ENCODING"), ("alignment", .child "MEM-ALIGNMENT"),
     ("byte_order", .child "BYTE-ORDER"), ("native_declaration", .shown "NATIVE-DECLARATION")]
  | .SwBitRepresentation =>
    [("position", .child "BIT-POSITION"), ("num_bits", .child "NUMBER-OF-BITS")]
  | .SwTextProps =>
    [("array_size_semantics", .child "ARRAY-SIZE-SEMANTICS"),
     ("max_text_size", .child "SW-MAX-TEXT-SIZE"), ("base_type_ref", .child "BASE-TYPE-REF"),
     ("fill_char", .child "SW-FILL-CHARACTER")]
  | .SwPointerTargetProps =>
    [("target_category", .text "TARGET-CATEGORY"),
     ("sw_data_def_props", .child "SW-DATA-DEF-PROPS"),
     ("function_ptr_signature_ref", .child "FUNCTION-POINTER-SIGNATURE-REF")]
  | .SwDataDefPropsConditional =>
    [("display_presentation", .child "DISPLAY-PRESENTATION"), ("step_size", .child "STEP-SIZE"),
     ("annotations", .list "ANNOTATIONS" ["ANNOTATION"]),
     ("sw_addr_method_ref", .child "SW-ADDR-METHOD-REF"), ("alignment", .child "SW-ALIGNMENT"),
     ("base_type_ref", .child "BASE-TYPE-REF"),
     ("bit_representation", .child "SW-BIT-REPRESENTATION"),
     ("calibration_access", .child "SW-CALIBRATION-ACCESS"),
     ("text_props", .child "SW-TEXT-PROPS"), ("compu_method_ref", .child "COMPU-METHOD-REF"),
     ("data_constraint_ref", .child "DATA-CONSTR-REF"),
     ("display_format", .text "DISPLAY-FORMAT"),
     ("impl_data_type_ref", .child "IMPLEMENTATION-DATA-TYPE-REF"),
     ("impl_policy", .child "SW-IMPL-POLICY"),
     ("additional_native_type_qualifier", .text "ADDITIONAL-NATIVE-TYPE-QUALIFIER"),
     ("intended_resolution", .child "SW-INTENDED-RESOLUTION"),
     ("interpolation_method", .text "SW-INTERPOLATION-METHOD"),
     ("is_virtual", .child "SW-IS-VIRTUAL"),
     ("ptr_target_props", .child "SW-POINTER-TARGET-PROPS"), ("unit_ref", .child "UNIT-REF")]
  | .SwDataDefProps =>
    [("variants", .list "SW-DATA-DEF-PROPS-VARIANTS" ["SW-DATA-DEF-PROPS-CONDITIONAL"])]
  | .SymbolProps =>
    [("name", .text "SHORT-NAME"), ("symbol", .text "SYMBOL")]
  | .ImplementationDataTypeElement => named ++
    [("array_impl_policy", .child "ARRAY-IMPL-POLICY"), ("array_size", .child "ARRAY-SIZE"),
     ("array_size_handling", .child "ARRAY-SIZE-HANDLING"),
     ("array_size_semantics", .child "ARRAY-SIZE-SEMANTICS"),
     ("is_optional", .child "IS-OPTIONAL"),
     ("sub_elements", .list "SUB-ELEMENTS" ["IMPLEMENTATION-DATA-TYPE-ELEMENT"]),
     ("sw_data_def_props", .child "SW-DATA-DEF-PROPS")]
  | .ImplementationDataType => named ++
    [("sw_data_def_props", .child "SW-DATA-DEF-PROPS"),
     ("dynamic_array_size_profile", .text "DYNAMIC-ARRAY-SIZE-PROFILE"),
     ("is_struct_with_optional_element", .child "IS-STRUCT-WITH-OPTIONAL-ELEMENT"),
     ("sub_elements", .list "SUB-ELEMENTS" ["IMPLEMENTATION-DATA-TYPE-ELEMENT"]),
     ("symbol_props", .child "SYMBOL-PROPS"), ("type_emitter", .text "TYPE-EMITTER")]
  | .VariableDataPrototype => named ++
    [("sw_data_def_props", .child "SW-DATA-DEF-PROPS"), ("type_ref", .child "TYPE-TREF"),
     ("init_value", .inner "INIT-VALUE" valueTags)]
  | .ParameterDataPrototype => named ++
    [("sw_data_def_props", .child "SW-DATA-DEF-PROPS"), ("type_ref", .child "TYPE-TREF"),
     ("init_value", .inner "INIT-VALUE" valueTags)]
  | .ArgumentDataPrototype => named ++
    [("sw_data_def_props", .child "SW-DATA-DEF-PROPS"), ("type_ref", .child "TYPE-TREF"),
     ("direction", .child "DIRECTION"),
     ("server_arg_impl_policy", .child "SERVER-ARGUMENT-IMPL-POLICY")]
  | .ApplicationPrimitiveDataType => named ++
    [("sw_data_def_props", .child "SW-DATA-DEF-PROPS")]
  | .ApplicationArrayElement => named ++
    [("sw_data_def_props", .child "SW-DATA-DEF-PROPS"), ("type_ref", .child "TYPE-TREF"),
     ("array_size_handling", .child "ARRAY-SIZE-HANDLING"),
     ("array_size_semantics", .child "ARRAY-SIZE-SEMANTICS"),
     ("index_data_type_ref", .child "INDEX-DATA-TYPE-REF"),
     ("max_number_of_elements", .child "MAX-NUMBER-OF-ELEMENTS")]
  | .ApplicationArrayDataType => named ++
    [("sw_data_def_props", .child "SW-DATA-DEF-PROPS"),
     ("dynamic_array_size_profile", .text "DYNAMIC-ARRAY-SIZE-PROFILE"),
     ("element", .child "ELEMENT")]
  | .ApplicationRecordElement => named ++
    [("sw_data_def_props", .child "SW-DATA-DEF-PROPS"), ("type_ref", .child "TYPE-TREF"),
     ("is_optional", .child "IS-OPTIONAL")]
  | .ApplicationRecordDataType => named ++
    [("sw_data_def_props", .child "SW-DATA-DEF-PROPS"),
     ("elements", .list "ELEMENTS" ["APPLICATION-RECORD-ELEMENT"])]
  | .DataTypeMap =>
    [("appl_data_type_ref", .child "APPLICATION-DATA-TYPE-REF"),
     ("impl_data_type_ref", .child "IMPLEMENTATION-DATA-TYPE-REF")]
  | .DataTypeMappingSet => named ++
    [("data_type_maps", .list "DATA-TYPE-MAPS" ["DATA-TYPE-MAP"])]
  | .ValueList =>
    [("values", .direct ["V"])]
  | .SwAddrMethod => named
  | .SwValues =>
    [("values", .direct ["VT", "V", "VG"])]
  | .ValueGroup =>
    [("label", .child "LABEL"), ("values", .direct ["VT", "V", "VG"])]
  | .SwAxisCont =>
    [("category", .child "CATEGORY"), ("unit_ref", .child "UNIT-REF"),
     ("unit_display_name", .child "UNIT-DISPLAY-NAME"), ("sw_axis_index", .child "SW-AXIS-INDEX"),
     ("sw_array_size", .child "SW-ARRAYSIZE"), ("sw_values_phys", .child "SW-VALUES-PHYS")]
  | .SwValueCont =>
    [("unit_ref", .child "UNIT-REF"), ("unit_display_name", .child "UNIT-DISPLAY-NAME"),
     ("sw_array_size", .child "SW-ARRAYSIZE"), ("sw_values_phys", .child "SW-VALUES-PHYS")]
  | .TextValueSpecification =>
    [("label", .text "SHORT-LABEL"), ("value", .text "VALUE")]
  | .NumericalValueSpecification =>
    [("label", .text "SHORT-LABEL"), ("value", .child "VALUE")]
  | .NotAvailableValueSpecification =>
    [("label", .text "SHORT-LABEL"), ("default_pattern", .child "DEFAULT-PATTERN")]
  | .ArrayValueSpecification =>
    [("label", .text "SHORT-LABEL"), ("elements", .list "ELEMENTS" valueTags)]
  | .RecordValueSpecification =>
    [("label", .text "SHORT-LABEL"), ("fields", .list "FIELDS" valueTags)]
  | .ApplicationValueSpecification =>
    [("label", .text "SHORT-LABEL"), ("category", .text "CATEGORY"),
     ("sw_axis_conts", .list "SW-AXIS-CONTS" ["SW-AXIS-CONT"]),
     ("sw_value_cont", .child "SW-VALUE-CONT")]
  | .ConstantSpecification => named ++
    [("value", .inner "VALUE-SPEC" valueTags)]
  | .ConstantReference =>
    [("label", .text "SHORT-LABEL"), ("constant_ref", .child "CONSTANT-REF")]
  | .ModeDeclaration => named ++
    [("value", .child "VALUE")]
  | .ModeErrorBehavior =>
    [("default_mode_ref", .child "DEFAULT-MODE-REF"),
     ("error_reaction_policy", .child "ERROR-REACTION-POLICY")]
  | .ModeTransition => named ++
    [("entered_mode_ref", .child "ENTERED-MODE-REF"),
     ("exited_mode_ref", .child "EXITED-MODE-REF")]
  | .ModeDeclarationGroup => named ++
    [("initial_mode_ref", .child "INITIAL-MODE-REF"),
     ("mode_declarations", .list "MODE-DECLARATIONS" ["MODE-DECLARATION"]),
     ("mode_manager_error_behavior", .child "MODE-MANAGER-ERROR-BEHAVIOR"),
     ("mode_transitions", .list "MODE-TRANSITIONS" ["MODE-TRANSITION"]),
     ("mode_user_error_behavior", .child "MODE-USER-ERROR-BEHAVIOR"),
     ("on_transition_value", .child "ON-TRANSITION-VALUE")]
  | .ModeDeclarationGroupPrototype => named ++
    [("calibration_access", .child "SW-CALIBRATION-ACCESS"), ("type_ref", .child "TYPE-TREF")]
  | .ModeRequestTypeMap =>
    [("implementation_data_type", .child "IMPLEMENTATION-DATA-TYPE-REF"),
     ("mode_group", .child "MODE-GROUP-REF")]
  | .InvalidationPolicy =>
    [("data_element_ref", .child "DATA-ELEMENT-REF"), ("handle_invalid", .child "HANDLE-INVALID")]
  | .SenderReceiverInterface => named ++
    [("is_service", .child "IS-SERVICE"),
     ("data_elements", .list "DATA-ELEMENTS" ["VARIABLE-DATA-PROTOTYPE"]),
     ("invalidation_policies", .list "INVALIDATION-POLICYS" ["INVALIDATION-POLICY"])]
  | .NvDataInterface => named ++
    [("is_service", .child "IS-SERVICE"),
     ("data_elements", .list "NV-DATAS" ["VARIABLE-DATA-PROTOTYPE"])]
  | .ParameterInterface => named ++
    [("is_service", .child "IS-SERVICE"),
     ("parameters", .list "PARAMETERS" ["PARAMETER-DATA-PROTOTYPE"])]
  | .ApplicationError => named ++
    [("error_code", .child "ERROR-CODE")]
  | .ClientServerOperation => named ++
    [("arguments", .list "ARGUMENTS" ["ARGUMENT-DATA-PROTOTYPE"]),
     ("diag_arg_integrity", .child "DIAG-ARG-INTEGRITY"),
     ("fire_and_forget", .child "FIRE-AND-FORGET"),
     ("possible_error_refs", .list "POSSIBLE-ERROR-REFS" ["POSSIBLE-ERROR-REF"])]
  | .ClientServerInterface => named ++
    [("is_service", .child "IS-SERVICE"),
     ("operations", .list "OPERATIONS" ["CLIENT-SERVER-OPERATION"]),
     ("possible_errors", .list "POSSIBLE-ERRORS" ["APPLICATION-ERROR"])]
  | .ModeSwitchInterface => named ++
    [("is_service", .child "IS-SERVICE"), ("mode_group", .child "MODE-GROUP")]
  | .E2EProfileCompatibilityProps => named ++
    [("transit_to_invalid_extended", .child "TRANSIT-TO-INVALID-EXTENDED")]
  | .EndToEndTransformationComSpecProps =>
    [("desc", .child "DESC"), ("category", .text "CATEGORY"),
     ("introduction", .child "INTRODUCTION"),
     ("clear_from_valid_to_invalid", .child "CLEAR-FROM-VALID-TO-INVALID"),
     ("disable_e2e_check", .child "DISABLE-END-TO-END-CHECK"),
     ("disable_e2e_state_machine", .child "DISABLE-END-TO-END-STATE-MACHINE"),
     ("e2e_profile_compatibility_props_ref", .child "E-2-E-PROFILE-COMPATIBILITY-PROPS-REF"),
     ("max_delta_counter", .child "MAX-DELTA-COUNTER"),
     ("max_error_state_init", .child "MAX-ERROR-STATE-INIT"),
     ("max_error_state_invalid", .child "MAX-ERROR-STATE-INVALID"),
     ("max_error_state_valid", .child "MAX-ERROR-STATE-VALID"),
     ("max_no_new_repeated_data", .child "MAX-NO-NEW-OR-REPEATED-DATA"),
     ("min_ok_state_init", .child "MIN-OK-STATE-INIT"),
     ("min_ok_state_invalid", .child "MIN-OK-STATE-INVALID"),
     ("min_ok_state_valid", .child "MIN-OK-STATE-VALID"),
     ("sync_counter_init", .child "SYNC-COUNTER-INIT"), ("window_size", .child "WINDOW-SIZE"),
     ("window_size_init", .child "WINDOW-SIZE-INIT"),
     ("window_size_invalid", .child "WINDOW-SIZE-INVALID"),
     ("window_size_valid", .child "WINDOW-SIZE-VALID")]
  | .ModeSwitchedAckRequest =>
    [("timeout", .child "TIMEOUT")]
  | .TransmissionAcknowledgementRequest =>
    [("timeout", .child "TIMEOUT")]
  | .TransmissionComSpecProps =>
    [("data_update_period", .child "DATA-UPDATE-PERIOD"),
     ("minimum_send_interval", .child "MINIMUM-SEND-INTERVAL"),
     ("transmission_mode", .child "TRANSMISSION-MODE")]
  | .ModeSwitchSenderComSpec =>
    [("enhanced_mode_api", .child "ENHANCED-MODE-API"),
     ("mode_group_ref", .child "MODE-GROUP-REF"),
     ("mode_switched_ack", .child "MODE-SWITCHED-ACK"), ("queue_length", .child "QUEUE-LENGTH")]
  | .QueuedSenderComSpec =>
    [("data_element_ref", .child "DATA-ELEMENT-REF"),
     ("handle_out_of_range", .child "HANDLE-OUT-OF-RANGE"),
     ("network_representation", .child "NETWORK-REPRESENTATION"),
     ("transmission_acknowledge", .child "TRANSMISSION-ACKNOWLEDGE"),
     ("tranmsission_props", .child "TRANSMISSION-PROPS"),
     ("uses_end_to_end_protection", .child "USES-END-TO-END-PROTECTION")]
  | .NonqueuedSenderComSpec =>
    [("data_element_ref", .child "DATA-ELEMENT-REF"),
     ("handle_out_of_range", .child "HANDLE-OUT-OF-RANGE"),
     ("network_representation", .child "NETWORK-REPRESENTATION"),
     ("transmission_acknowledge", .child "TRANSMISSION-ACKNOWLEDGE"),
     ("tranmsission_props", .child "TRANSMISSION-PROPS"),
     ("uses_end_to_end_protection", .child "USES-END-TO-END-PROTECTION"),
     ("data_filter", .child "DATA-FILTER"), ("init_value", .inner "INIT-VALUE" valueTags)]
  | .NvProvideComSpec =>
    [("ram_block_init_value", .inner "RAM-BLOCK-INIT-VALUE" valueTags),
     ("rom_block_init_value", .inner "ROM-BLOCK-INIT-VALUE" valueTags),
     ("variable_ref", .child "VARIABLE-REF")]
  | .ParameterProvideComSpec =>
    [("init_value", .inner "INIT-VALUE" valueTags), ("parameter_ref", .child "PARAMETER-REF")]
  | .ServerComSpec =>
    [("operation_ref", .child "OPERATION-REF"), ("queue_length", .child "QUEUE-LENGTH"),
     ("transformation_com_spec_props", .list "TRANSFORMATION-COM-SPEC-PROPSS"
       ["END-TO-END-TRANSFORMATION-COM-SPEC-PROPS"])]
  | .ReceptionComSpecProps =>
    [("data_update_period", .child "DATA-UPDATE-PERIOD"), ("timeout", .child "TIMEOUT")]
  | .QueuedReceiverComSpec =>
    [("data_element_ref", .child "DATA-ELEMENT-REF"),
     ("handle_out_of_range", .child "HANDLE-OUT-OF-RANGE"),
     ("handle_out_of_range_status", .child "HANDLE-OUT-OF-RANGE-STATUS"),
     ("max_delta_counter_init", .child "MAX-DELTA-COUNTER-INIT"),
     ("max_no_new_repeated_data", .child "MAX-NO-NEW-OR-REPEATED-DATA"),
     ("network_representation", .child "NETWORK-REPRESENTATION"),
     ("reception_props", .child "RECEPTION-PROPS"), ("replace_with", .child "REPLACE-WITH"),
     ("sync_counter_init", .child "SYNC-COUNTER-INIT"),
     ("transformation_com_spec_props", .list "TRANSFORMATION-COM-SPEC-PROPSS"
       ["END-TO-END-TRANSFORMATION-COM-SPEC-PROPS"]),
     ("uses_end_to_end_protection", .child "USES-END-TO-END-PROTECTION"),
     ("queue_length", .child "QUEUE-LENGTH")]
  | .NonqueuedReceiverComSpec =>
    [("data_element_ref", .child "DATA-ELEMENT-REF"),
     ("handle_out_of_range", .child "HANDLE-OUT-OF-RANGE"),
     ("handle_out_of_range_status", .child "HANDLE-OUT-OF-RANGE-STATUS"),
     ("max_delta_counter_init", .child "MAX-DELTA-COUNTER-INIT"),
     ("max_no_new_repeated_data", .child "MAX-NO-NEW-OR-REPEATED-DATA"),
     ("network_representation", .child "NETWORK-REPRESENTATION"),
     ("reception_props", .child "RECEPTION-PROPS"), ("replace_with", .child "REPLACE-WITH"),
     ("sync_counter_init", .child "SYNC-COUNTER-INIT"),
     ("transformation_com_spec_props", .list "TRANSFORMATION-COM-SPEC-PROPSS"
       ["END-TO-END-TRANSFORMATION-COM-SPEC-PROPS"]),
     ("uses_end_to_end_protection", .child "USES-END-TO-END-PROTECTION"),
     ("alive_timeout", .child "ALIVE-TIMEOUT"), ("enable_update", .child "ENABLE-UPDATE"),
     ("data_filter", .child "FILTER"), ("handle_data_status", .child "HANDLE-DATA-STATUS"),
     ("handle_never_received", .child "HANDLE-NEVER-RECEIVED"),
     ("handle_timeout_type", .child "HANDLE-TIMEOUT-TYPE"),
     ("init_value", .inner "INIT-VALUE" valueTags),
     ("timeout_substitution_value", .inner "TIMEOUT-SUBSTITUTION-VALUE" valueTags)]
  | .NvRequireComSpec =>
    [("init_value", .inner "INIT-VALUE" valueTags), ("variable_ref", .child "VARIABLE-REF")]
  | .ParameterRequireComSpec =>
    [("init_value", .inner "INIT-VALUE" valueTags), ("parameter_ref", .child "PARAMETER-REF")]
  | .ModeSwitchReceiverComSpec =>
    [("enhanced_mode_api", .child "ENHANCED-MODE-API"),
     ("mode_group_ref", .child "MODE-GROUP-REF"),
     ("supports_async", .child "SUPPORTS-ASYNCHRONOUS-MODE-SWITCH")]
  | .ClientComSpec =>
    [("e2e_call_respone_timeout", .child "END-TO-END-CALL-RESPONSE-TIMEOUT"),
     ("operation_ref", .child "OPERATION-REF"),
     ("transformation_com_spec_props", .list "TRANSFORMATION-COM-SPEC-PROPSS"
       ["END-TO-END-TRANSFORMATION-COM-SPEC-PROPS"])]
  | .ProvidePortPrototype => named ++
    [("com_spec", .list "PROVIDED-COM-SPECS" providedTags),
     ("port_interface_ref", .child "PROVIDED-INTERFACE-TREF")]
  | .RequirePortPrototype => named ++
    [("com_spec", .list "REQUIRED-COM-SPECS" requiredTags),
     ("allow_unconnected", .child "MAY-BE-UNCONNECTED"),
     ("port_interface_ref", .child "REQUIRED-INTERFACE-TREF")]
  | .PRPortPrototype => named ++
    [("provided_com_spec", .list "PROVIDED-COM-SPECS" providedTags),
     ("required_com_spec", .list "REQUIRED-COM-SPECS" requiredTags),
     ("port_interface_ref", .child "PROVIDED-REQUIRED-INTERFACE-TREF")]
  | .ApplicationSoftwareComponentType => named ++
    [("ports", .list "PORTS" ["P-PORT-PROTOTYPE", "R-PORT-PROTOTYPE", "PR-PORT-PROTOTYPE"]),
     ("internal_behavior", .innerTag "INTERNAL-BEHAVIORS" "SWC-INTERNAL-BEHAVIOR"),
     ("symbol_props", .child "SYMBOL-PROPS")]
  | .SwComponentPrototype => named ++
    [("type_ref", .child "TYPE-TREF")]
  | .ProviderPortInstanceRef =>
    [("component_ref", .child "CONTEXT-COMPONENT-REF"), ("port_ref", .child "TARGET-P-PORT-REF")]
  | .RequesterPortInstanceRef =>
    [("component_ref", .child "CONTEXT-COMPONENT-REF"), ("port_ref", .child "TARGET-R-PORT-REF")]
  | .InnerProvidedPortInstanceRef =>
    [("component_ref", .child "CONTEXT-COMPONENT-REF"), ("port_ref", .child "TARGET-P-PORT-REF")]
  | .InnerRequiredPortInstanceRef =>
    [("component_ref", .child "CONTEXT-COMPONENT-REF"), ("port_ref", .child "TARGET-R-PORT-REF")]
  | .AssemblySwConnector => named ++
    [("provide_port", .child "PROVIDER-IREF"), ("require_port", .child "REQUESTER-IREF")]
  | .DelegationSwConnector => named ++
    [("inner_port", .inner "INNER-PORT-IREF"
       ["P-PORT-IN-COMPOSITION-INSTANCE-REF", "R-PORT-IN-COMPOSITION-INSTANCE-REF"]),
     ("outer_port", .child "OUTER-PORT-REF")]
  | .PassThroughSwConnector => named ++
    [("provide_port", .child "PROVIDED-OUTER-PORT-REF"),
     ("require_port", .child "REQUIRED-OUTER-PORT-REF")]
  | .CompositionSwComponentType => named ++
    [("ports", .list "PORTS" ["P-PORT-PROTOTYPE", "R-PORT-PROTOTYPE", "PR-PORT-PROTOTYPE"]),
     ("components", .list "COMPONENTS" []),
     ("connectors", .list "CONNECTORS"
       ["ASSEMBLY-SW-CONNECTOR", "DELEGATION-SW-CONNECTOR", "PASS-THROUGH-SW-CONNECTOR"])]
  | .POperationInAtomicSwcInstanceRef =>
    [("context_port", .child "CONTEXT-P-PORT-REF"),
     ("target_provided_operation", .child "TARGET-PROVIDED-OPERATION-REF")]
  | .PModeGroupInAtomicSwcInstanceRef =>
    [("context_port", .child "CONTEXT-P-PORT-REF"),
     ("target_mode_group", .child "TARGET-MODE-GROUP-REF")]
  | .PTriggerInAtomicSwcTypeInstanceRef =>
    [("context_port", .child "CONTEXT-P-PORT-REF"),
     ("target_trigger", .child "TARGET-TRIGGER-REF")]
  | .ROperationInAtomicSwcInstanceRef =>
    [("context_port", .child "CONTEXT-R-PORT-REF"),
     ("target_required_operation", .child "TARGET-REQUIRED-OPERATION-REF")]
  | .RModeInAtomicSwcInstanceRef =>
    [("context_port", .child "CONTEXT-PORT-REF"),
     ("context_mode_declaration_group_prototype",
       .child "CONTEXT-MODE-DECLARATION-GROUP-PROTOTYPE-REF"),
     ("target_mode_declaration", .child "TARGET-MODE-DECLARATION-REF")]
  | .RModeGroupInAtomicSwcInstanceRef =>
    [("context_port", .child "CONTEXT-R-PORT-REF"),
     ("target_mode_group", .child "TARGET-MODE-GROUP-REF")]
  | .RVariableInAtomicSwcInstanceRef =>
    [("context_port", .child "CONTEXT-R-PORT-REF"),
     ("target_data_element", .child "TARGET-DATA-ELEMENT-REF")]
  | .RTriggerInAtomicSwcInstanceRef =>
    [("context_port", .child "CONTEXT-R-PORT-REF"),
     ("target_trigger", .child "TARGET-TRIGGER-REF")]
  | .ArVariableInImplementationDataInstanceRef =>
    [("port_prototype_ref", .child "PORT-PROTOTYPE-REF"),
     ("root_variable_data_prototype_ref", .child "ROOT-VARIABLE-DATA-PROTOTYPE-REF"),
     ("context_data_prototype_refs", .list "CONTEXT-DATA-PROTOTYPE-REFS"
       ["CONTEXT-DATA-PROTOTYPE-REF"]),
     ("target_data_prototype_ref", .child "TARGET-DATA-PROTOTYPE-REF")]
  | .VariableInAtomicSWCTypeInstanceRef =>
    [("port_prototype_ref", .child "PORT-PROTOTYPE-REF"),
     ("root_variable_data_prototype_ref", .child "ROOT-VARIABLE-DATA-PROTOTYPE-REF"),
     ("context_data_prototype_refs", .direct ["CONTEXT-DATA-PROTOTYPE-REF"]),
     ("target_data_prototype_ref", .child "TARGET-DATA-PROTOTYPE-REF")]
  | .AutosarVariableRef =>
    [("ar_variable_in_impl_datatype", .child "AUTOSAR-VARIABLE-IN-IMPL-DATATYPE"),
     ("ar_variable_iref", .child "AUTOSAR-VARIABLE-IREF"),
     ("local_variable_ref", .child "LOCAL-VARIABLE-REF")]
  | .VariableAccess => named ++
    [("accessed_variable", .child "ACCESSED-VARIABLE"), ("scope", .child "SCOPE")]
  | .SwcImplementation => named ++
    [("code_descriptors", .list "CODE-DESCRIPTORS" ["CODE"]),
     ("behavior_ref", .child "BEHAVIOR-REF"),
     ("required_rte_vendor", .text "REQUIRED-RTE-VENDOR")]
  | .ExecutableEntityActivationReason =>
    [("name", .text "SHORT-NAME"), ("symbol", .text "SYMBOL"),
     ("bit_position", .child "BIT-POSITION")]
  | .ExclusiveAreaRefConditional =>
    [("exclusive_area", .child "EXCLUSIVE-AREA-REF")]
  | .RunnableEntityArgument =>
    [("symbol", .text "SYMBOL")]
  | .AsynchronousServerCallPoint => named ++
    [("return_value_provision", .child "RETURN-VALUE-PROVISION"),
     ("operation", .child "OPERATION-IREF"), ("timeout", .child "TIMEOUT")]
  | .AsynchronousServerCallResultPoint => named ++
    [("return_value_provision", .child "RETURN-VALUE-PROVISION"),
     ("async_server_call_point", .child "ASYNCHRONOUS-SERVER-CALL-POINT-REF")]
  | .SynchronousServerCallPoint => named ++
    [("return_value_provision", .child "RETURN-VALUE-PROVISION"),
     ("operation", .child "OPERATION-IREF"), ("timeout", .child "TIMEOUT"),
     ("called_from_within_exclusive_area", .child "CALLED-FROM-WITHIN-EXCLUSIVE-AREA-REF")]
  | .ExternalTriggeringPointIdent => named ++
    [("return_value_provision", .child "RETURN-VALUE-PROVISION")]
  | .ExternalTriggeringPoint =>
    [("ident", .child "IDENT"), ("trigger", .child "TRIGGER-IREF")]
  | .InternalTriggeringPoint => named ++
    [("return_value_provision", .child "RETURN-VALUE-PROVISION"),
     ("sw_impl_policy", .child "SW-IMPL-POLICY")]
  | .ModeAccessPointIdent => named ++
    [("return_value_provision", .child "RETURN-VALUE-PROVISION")]
  | .ModeAccessPoint =>
    [("ident", .child "IDENT"),
     ("mode_group", .inner "MODE-GROUP-IREF"
       ["P-MODE-GROUP-IN-ATOMIC-SWC-INSTANCE-REF", "R-MODE-GROUP-IN-ATOMIC-SWC-INSTANCE-REF"])]
  | .ModeSwitchPoint => named ++
    [("return_value_provision", .child "RETURN-VALUE-PROVISION"),
     ("mode_group", .child "MODE-GROUP-IREF")]
  | .ParameterInAtomicSwcTypeInstanceRef =>
    [("port_prototype", .child "PORT-PROTOTYPE-REF"),
     ("root_parameter_data_prototype", .child "ROOT-PARAMETER-DATA-PROTOTYPE-REF"),
     ("context_data_prototype", .child "CONTEXT-DATA-PROTOTYPE-REF"),
     ("target_data_prototype", .child "TARGET-DATA-PROTOTYPE-REF")]
  | .AutosarParameterRef =>
    [("autosar_parameter", .child "AUTOSAR-PARAMETER-IREF"),
     ("local_parameter", .child "LOCAL-PARAMETER-REF")]
  | .ParameterAccess => named ++
    [("return_value_provision", .child "RETURN-VALUE-PROVISION"),
     ("accessed_parameter", .child "ACCESSED-PARAMETER"),
     ("sw_data_def_props", .child "SW-DATA-DEF-PROPS")]
  | .WaitPoint => named ++
    [("timeout", .child "TIMEOUT"), ("trigger", .child "TRIGGER-REF")]
  | .RunnableEntity => named ++
    [("activation_reasons", .list "ACTIVATION-REASONS" ["EXECUTABLE-ENTITY-ACTIVATION-REASON"]),
     ("can_enter_leave", .list "CAN-ENTERS" ["EXCLUSIVE-AREA-REF-CONDITIONAL"]),
     ("exclusive_area_nesting_order", .list "EXCLUSIVE-AREA-NESTING-ORDER-REFS"
       ["EXCLUSIVE-AREA-NESTING-ORDER-REF"]),
     ("minimum_start_interval", .child "MINIMUM-START-INTERVAL"),
     ("reentrancy_level", .child "REENTRANCY-LEVEL"),
     ("runs_insides", .list "RUNS-INSIDES" ["EXCLUSIVE-AREA-REF-CONDITIONAL"]),
     ("sw_addr_method", .child "SW-ADDR-METHOD-REF"),
     ("argument", .list "ARGUMENTS" ["RUNNABLE-ENTITY-ARGUMENT"]),
     ("async_server_call_result_point", .list "ASYNCHRONOUS-SERVER-CALL-RESULT-POINTS"
       ["ASYNCHRONOUS-SERVER-CALL-RESULT-POINT"]),
     ("can_be_invoked_concurrently", .child "CAN-BE-INVOKED-CONCURRENTLY"),
     ("data_read_access", .list "DATA-READ-ACCESSS" ["VARIABLE-ACCESS"]),
     ("data_receive_point_by_argument", .list "DATA-RECEIVE-POINT-BY-ARGUMENTS"
       ["VARIABLE-ACCESS"]),
     ("data_receive_point_by_value", .list "DATA-RECEIVE-POINT-BY-VALUES" ["VARIABLE-ACCESS"]),
     ("data_send_point", .list "DATA-SEND-POINTS" ["VARIABLE-ACCESS"]),
     ("data_write_access", .list "DATA-WRITE-ACCESSS" ["VARIABLE-ACCESS"]),
     ("external_triggering_point", .list "EXTERNAL-TRIGGERING-POINTS"
       ["EXTERNAL-TRIGGERING-POINT"]),
     ("internal_triggering_point", .list "INTERNAL-TRIGGERING-POINTS"
       ["INTERNAL-TRIGGERING-POINT"]),
     ("mode_access_point", .list "MODE-ACCESS-POINTS" ["MODE-ACCESS-POINT"]),
     ("mode_switch_point", .list "MODE-SWITCH-POINTS" ["MODE-SWITCH-POINT"]),
     ("parameter_access", .list "PARAMETER-ACCESSS" ["PARAMETER-ACCESS"]),
     ("read_local_variable", .list "READ-LOCAL-VARIABLES" ["VARIABLE-ACCESS"]),
     ("server_call_point", .list "SERVER-CALL-POINTS"
       ["ASYNCHRONOUS-SERVER-CALL-POINT", "SYNCHRONOUS-SERVER-CALL-POINT"]),
     ("symbol", .text "SYMBOL"), ("wait_point", .list "WAIT-POINTS" ["WAIT-POINT"]),
     ("write_local_variable", .list "WRITTEN-LOCAL-VARIABLES" ["VARIABLE-ACCESS"])]
  | .AsynchronousServerCallReturnsEvent => named ++
    [("disabled_modes", .list "DISABLED-MODE-IREFS" ["DISABLED-MODE-IREF"]),
     ("start_on_event", .child "START-ON-EVENT-REF"), ("event_source", .child "EVENT-SOURCE-REF")]
  | .BackgroundEvent => named ++
    [("disabled_modes", .list "DISABLED-MODE-IREFS" ["DISABLED-MODE-IREF"]),
     ("start_on_event", .child "START-ON-EVENT-REF")]
  | .DataReceiveErrorEvent => named ++
    [("disabled_modes", .list "DISABLED-MODE-IREFS" ["DISABLED-MODE-IREF"]),
     ("start_on_event", .child "START-ON-EVENT-REF"), ("data", .child "DATA-IREF")]
  | .DataReceivedEvent => named ++
    [("disabled_modes", .list "DISABLED-MODE-IREFS" ["DISABLED-MODE-IREF"]),
     ("start_on_event", .child "START-ON-EVENT-REF"), ("data", .child "DATA-IREF")]
  | .DataSendCompletedEvent => named ++
    [("disabled_modes", .list "DISABLED-MODE-IREFS" ["DISABLED-MODE-IREF"]),
     ("start_on_event", .child "START-ON-EVENT-REF"), ("event_source", .child "EVENT-SOURCE-REF")]
  | .DataWriteCompletedEvent => named ++
    [("disabled_modes", .list "DISABLED-MODE-IREFS" ["DISABLED-MODE-IREF"]),
     ("start_on_event", .child "START-ON-EVENT-REF"), ("event_source", .child "EVENT-SOURCE-REF")]
  | .ExternalTriggerOccurredEvent => named ++
    [("disabled_modes", .list "DISABLED-MODE-IREFS" ["DISABLED-MODE-IREF"]),
     ("start_on_event", .child "START-ON-EVENT-REF"), ("trigger", .child "TRIGGER-IREF")]
  | .InitEvent => named ++
    [("disabled_modes", .list "DISABLED-MODE-IREFS" ["DISABLED-MODE-IREF"]),
     ("start_on_event", .child "START-ON-EVENT-REF")]
  | .InternalTriggerOccurredEvent => named ++
    [("disabled_modes", .list "DISABLED-MODE-IREFS" ["DISABLED-MODE-IREF"]),
     ("start_on_event", .child "START-ON-EVENT-REF"), ("event_source", .child "EVENT-SOURCE-REF")]
  | .ModeSwitchedAckEvent => named ++
    [("disabled_modes", .list "DISABLED-MODE-IREFS" ["DISABLED-MODE-IREF"]),
     ("start_on_event", .child "START-ON-EVENT-REF"), ("event_source", .child "EVENT-SOURCE-REF")]
  | .OperationInvokedEvent => named ++
    [("disabled_modes", .list "DISABLED-MODE-IREFS" ["DISABLED-MODE-IREF"]),
     ("start_on_event", .child "START-ON-EVENT-REF"), ("operation", .child "OPERATION-IREF")]
  | .SwcModeManagerErrorEvent => named ++
    [("disabled_modes", .list "DISABLED-MODE-IREFS" ["DISABLED-MODE-IREF"]),
     ("start_on_event", .child "START-ON-EVENT-REF"), ("mode_group", .child "MODE-GROUP-IREF")]
  | .SwcModeSwitchEvent => named ++
    [("disabled_modes", .list "DISABLED-MODE-IREFS" ["DISABLED-MODE-IREF"]),
     ("start_on_event", .child "START-ON-EVENT-REF"), ("activation", .child "ACTIVATION"),
     ("mode", .list "MODE-IREFS" ["MODE-IREF"])]
  | .TimingEvent => named ++
    [("disabled_modes", .list "DISABLED-MODE-IREFS" ["DISABLED-MODE-IREF"]),
     ("start_on_event", .child "START-ON-EVENT-REF"), ("offset", .child "OFFSET"),
     ("period", .child "PERIOD")]
  | .TransformerHardErrorEvent => named ++
    [("disabled_modes", .list "DISABLED-MODE-IREFS" ["DISABLED-MODE-IREF"]),
     ("start_on_event", .child "START-ON-EVENT-REF"), ("operation", .child "OPERATION-IREF"),
     ("required_trigger", .child "REQUIRED-TRIGGER-IREF"), ("trigger", .child "TRIGGER-IREF")]
  | .PortDefinedArgumentValue =>
    [("value", .inner "VALUE" valueTags), ("value_type", .child "VALUE-TYPE-TREF")]
  | .CommunicationBufferLocking =>
    [("support_buffer_locking", .child "SUPPORT-BUFFER-LOCKING")]
  | .PortApiOption =>
    [("enable_take_address", .child "ENABLE-TAKE-ADDRESS"),
     ("error_handling", .child "ERROR-HANDLING"), ("indirect_api", .child "INDIRECT-API"),
     ("port_arg_values", .list "PORT-ARG-VALUES" ["PORT-DEFINED-ARGUMENT-VALUE"]),
     ("port", .child "PORT-REF"),
     ("supported_features", .list "SUPPORTED-FEATURES" ["COMMUNICATION-BUFFER-LOCKING"]),
     ("transformer_status_forwarding", .child "TRANSFORMER-STATUS-FORWARDING")]
  | .ExclusiveArea => named
  | .SwcInternalBehavior => named ++
    [("data_type_mappings", .list "DATA-TYPE-MAPPING-REFS" ["DATA-TYPE-MAPPING-REF"]),
     ("exclusive_areas", .list "EXCLUSIVE-AREAS" ["EXCLUSIVE-AREA"]),
     ("events", .list "EVENTS"
       ["ASYNCHRONOUS-SERVER-CALL-RETURNS-EVENT", "BACKGROUND-EVENT", "DATA-RECEIVE-ERROR-EVENT",
        "DATA-RECEIVED-EVENT", "DATA-SEND-COMPLETED-EVENT", "DATA-WRITE-COMPLETED-EVENT",
        "EXTERNAL-TRIGGER-OCCURRED-EVENT", "INIT-EVENT", "INTERNAL-TRIGGER-OCCURRED-EVENT",
        "MODE-SWITCHED-ACK-EVENT", "OPERATION-INVOKED-EVENT", "SWC-MODE-MANAGER-ERROR-EVENT",
        "SWC-MODE-SWITCH-EVENT", "TIMING-EVENT", "TRANSFORMER-HARD-ERROR-EVENT"]),
     ("port_api_options", .list "PORT-API-OPTIONS" ["PORT-API-OPTION"]),
     ("runnables", .list "RUNNABLES" ["RUNNABLE-ENTITY"])]
  | .PortInCompositionTypeInstanceRef => []
  | .Package => named

/-- Attributes that are never read, with their place in the AUTOSAR schema. -/
def unread : List (Cls × String × Place) :=
  [(.ScaleConstraint, "validity", .attribute "VALIDITY"),
   (.SenderReceiverInterface, "service_kind", .text "SERVICE-KIND"),
   (.NvDataInterface, "service_kind", .text "SERVICE-KIND"),
   (.ParameterInterface, "service_kind", .text "SERVICE-KIND"),
   (.ClientServerInterface, "service_kind", .text "SERVICE-KIND"),
   (.ModeSwitchInterface, "service_kind", .text "SERVICE-KIND")]

/-- The class of the objects that elements with this tag are read as, for the tags of which
several may stand in one place. -/
def tagClasses : List (String × Cls) :=
  [("ANNOTATION", .Annotation), ("COMPU-SCALE", .CompuScale),
   ("DATA-CONSTR-RULE", .DataConstraintRule), ("SCALE-CONSTR", .ScaleConstraint),
   ("AUTOSAR-ENGINEERING-OBJECT", .AutosarEngineeringObject),
   ("SW-DATA-DEF-PROPS-CONDITIONAL", .SwDataDefPropsConditional),
   ("IMPLEMENTATION-DATA-TYPE-ELEMENT", .ImplementationDataTypeElement),
   ("APPLICATION-RECORD-ELEMENT", .ApplicationRecordElement), ("DATA-TYPE-MAP", .DataTypeMap),
   ("TEXT-VALUE-SPECIFICATION", .TextValueSpecification),
   ("NUMERICAL-VALUE-SPECIFICATION", .NumericalValueSpecification),
   ("NOT-AVAILABLE-VALUE-SPECIFICATION", .NotAvailableValueSpecification),
   ("ARRAY-VALUE-SPECIFICATION", .ArrayValueSpecification),
   ("RECORD-VALUE-SPECIFICATION", .RecordValueSpecification),
   ("APPLICATION-VALUE-SPECIFICATION", .ApplicationValueSpecification),
   ("CONSTANT-REFERENCE", .ConstantReference), ("SW-AXIS-CONT", .SwAxisCont),
   ("MODE-DECLARATION", .ModeDeclaration), ("MODE-TRANSITION", .ModeTransition),
   ("VARIABLE-DATA-PROTOTYPE", .VariableDataPrototype),
   ("PARAMETER-DATA-PROTOTYPE", .ParameterDataPrototype),
   ("INVALIDATION-POLICY", .InvalidationPolicy),
   ("ARGUMENT-DATA-PROTOTYPE", .ArgumentDataPrototype),
   ("CLIENT-SERVER-OPERATION", .ClientServerOperation), ("APPLICATION-ERROR", .ApplicationError),
   ("END-TO-END-TRANSFORMATION-COM-SPEC-PROPS", .EndToEndTransformationComSpecProps),
   ("QUEUED-SENDER-COM-SPEC", .QueuedSenderComSpec),
   ("MODE-SWITCH-SENDER-COM-SPEC", .ModeSwitchSenderComSpec),
   ("NONQUEUED-SENDER-COM-SPEC", .NonqueuedSenderComSpec),
   ("NV-PROVIDE-COM-SPEC", .NvProvideComSpec),
   ("PARAMETER-PROVIDE-COM-SPEC", .ParameterProvideComSpec), ("SERVER-COM-SPEC", .ServerComSpec),
   ("QUEUED-RECEIVER-COM-SPEC", .QueuedReceiverComSpec),
   ("NONQUEUED-RECEIVER-COM-SPEC", .NonqueuedReceiverComSpec),
   ("NV-REQUIRE-COM-SPEC", .NvRequireComSpec),
   ("PARAMETER-REQUIRE-COM-SPEC", .ParameterRequireComSpec),
   ("MODE-SWITCH-RECEIVER-COM-SPEC", .ModeSwitchReceiverComSpec),
   ("CLIENT-COM-SPEC", .ClientComSpec), ("P-PORT-PROTOTYPE", .ProvidePortPrototype),
   ("R-PORT-PROTOTYPE", .RequirePortPrototype), ("PR-PORT-PROTOTYPE", .PRPortPrototype),
   ("ASSEMBLY-SW-CONNECTOR", .AssemblySwConnector),
   ("DELEGATION-SW-CONNECTOR", .DelegationSwConnector),
   ("PASS-THROUGH-SW-CONNECTOR", .PassThroughSwConnector), ("CODE", .Code),
   ("EXECUTABLE-ENTITY-ACTIVATION-REASON", .ExecutableEntityActivationReason),
   ("EXCLUSIVE-AREA-REF-CONDITIONAL", .ExclusiveAreaRefConditional),
   ("RUNNABLE-ENTITY-ARGUMENT", .RunnableEntityArgument),
   ("ASYNCHRONOUS-SERVER-CALL-RESULT-POINT", .AsynchronousServerCallResultPoint),
   ("VARIABLE-ACCESS", .VariableAccess), ("EXTERNAL-TRIGGERING-POINT", .ExternalTriggeringPoint),
   ("INTERNAL-TRIGGERING-POINT", .InternalTriggeringPoint),
   ("MODE-ACCESS-POINT", .ModeAccessPoint), ("MODE-SWITCH-POINT", .ModeSwitchPoint),
   ("PARAMETER-ACCESS", .ParameterAccess),
   ("ASYNCHRONOUS-SERVER-CALL-POINT", .AsynchronousServerCallPoint),
   ("SYNCHRONOUS-SERVER-CALL-POINT", .SynchronousServerCallPoint), ("WAIT-POINT", .WaitPoint),
   ("DISABLED-MODE-IREF", .RModeInAtomicSwcInstanceRef),
   ("MODE-IREF", .RModeInAtomicSwcInstanceRef),
   ("PORT-DEFINED-ARGUMENT-VALUE", .PortDefinedArgumentValue),
   ("COMMUNICATION-BUFFER-LOCKING", .CommunicationBufferLocking),
   ("EXCLUSIVE-AREA", .ExclusiveArea),
   ("ASYNCHRONOUS-SERVER-CALL-RETURNS-EVENT", .AsynchronousServerCallReturnsEvent),
   ("BACKGROUND-EVENT", .BackgroundEvent), ("DATA-RECEIVE-ERROR-EVENT", .DataReceiveErrorEvent),
   ("DATA-RECEIVED-EVENT", .DataReceivedEvent),
   ("DATA-SEND-COMPLETED-EVENT", .DataSendCompletedEvent),
   ("DATA-WRITE-COMPLETED-EVENT", .DataWriteCompletedEvent),
   ("EXTERNAL-TRIGGER-OCCURRED-EVENT", .ExternalTriggerOccurredEvent), ("INIT-EVENT", .InitEvent),
   ("INTERNAL-TRIGGER-OCCURRED-EVENT", .InternalTriggerOccurredEvent),
   ("MODE-SWITCHED-ACK-EVENT", .ModeSwitchedAckEvent),
   ("OPERATION-INVOKED-EVENT", .OperationInvokedEvent),
   ("SWC-MODE-MANAGER-ERROR-EVENT", .SwcModeManagerErrorEvent),
   ("SWC-MODE-SWITCH-EVENT", .SwcModeSwitchEvent), ("TIMING-EVENT", .TimingEvent),
   ("TRANSFORMER-HARD-ERROR-EVENT", .TransformerHardErrorEvent),
   ("PORT-API-OPTION", .PortApiOption), ("RUNNABLE-ENTITY", .RunnableEntity),
   ("P", .MultiLanguageParagraph), ("VERBATIM", .MultiLanguageVerbatim), ("TT", .TechnicalTerm),
   ("L-1", .LanguageParagraph), ("L-5", .LanguageVerbatim), ("SUB", .Subscript),
   ("SUP", .Superscript), ("COMPU-CONST", .CompuConst), ("COMPU-RATIONAL-COEFFS", .CompuRational),
   ("VG", .ValueGroup), ("P-PORT-IN-COMPOSITION-INSTANCE-REF", .InnerProvidedPortInstanceRef),
   ("R-PORT-IN-COMPOSITION-INSTANCE-REF", .InnerRequiredPortInstanceRef),
   ("P-MODE-GROUP-IN-ATOMIC-SWC-INSTANCE-REF", .PModeGroupInAtomicSwcInstanceRef),
   ("R-MODE-GROUP-IN-ATOMIC-SWC-INSTANCE-REF", .RModeGroupInAtomicSwcInstanceRef),
   ("L-4", .LanguageLongName), ("L-2", .LanguageOverviewParagraph),
   ("COMPU-METHOD", .CompuMethod), ("DATA-FILTER", .DataFilter),
   ("APPLICATION-ARRAY-DATA-TYPE", .ApplicationArrayDataType),
   ("APPLICATION-RECORD-DATA-TYPE", .ApplicationRecordDataType),
   ("APPLICATION-PRIMITIVE-DATA-TYPE", .ApplicationPrimitiveDataType),
   ("SW-BASE-TYPE", .SwBaseType), ("SW-ADDR-METHOD", .SwAddrMethod),
   ("IMPLEMENTATION-DATA-TYPE", .ImplementationDataType),
   ("DATA-TYPE-MAPPING-SET", .DataTypeMappingSet), ("DATA-CONSTR", .DataConstraint),
   ("NV-DATA-INTERFACE", .NvDataInterface), ("PARAMETER-INTERFACE", .ParameterInterface),
   ("SENDER-RECEIVER-INTERFACE", .SenderReceiverInterface),
   ("CLIENT-SERVER-INTERFACE", .ClientServerInterface),
   ("MODE-SWITCH-INTERFACE", .ModeSwitchInterface), ("UNIT", .Unit),
   ("CONSTANT-SPECIFICATION", .ConstantSpecification),
   ("MODE-DECLARATION-GROUP", .ModeDeclarationGroup),
   ("E-2-E-PROFILE-COMPATIBILITY-PROPS", .E2EProfileCompatibilityProps),
   ("APPLICATION-SW-COMPONENT-TYPE", .ApplicationSoftwareComponentType),
   ("COMPOSITION-SW-COMPONENT-TYPE", .CompositionSwComponentType),
   ("SWC-IMPLEMENTATION", .SwcImplementation)]

/-- If the tag stands for a class, the value is an object of that class. -/
def Kind (tag : String) (v : Val Cls) : Prop :=
  ∀ c, dictGet tagClasses tag = some c → ∃ fs, v = .obj c fs

/-- The text denotes this number, for Python: `int(s)`, `int(s, 0)`, `float(s)` or
`float(int(s))`. -/
def IsNumber (s : String) : PyNum → Prop
  | .int i => pyInt s.toList = some i ∨ pyInt0 s.toList = some i
  | .float f => pyFloat s.toList = some f ∨ ∃ i, pyInt s.toList = some i ∧ f = toFloat (.int i)

/-- A text says a value that is not an object. -/
def TextSays (s : String) : Val Cls → Prop
  | .str t => t = s
  | .bool true => s = "true" ∨ s = "1"
  | .bool false => s = "false" ∨ s = "0"
  | .num n => IsNumber s n
  | .numval n => IsNumber s n.value
  | .enum m => xmlToEnum m.cls s defaultVersion = .ok m
  | _ => False

/-- Reading the element as an object of the class its tag stands for raises KeyError (an XML
attribute is missing, or an enumeration has no such value). -/
def Broken (tag : String) (d : Dom) : Prop :=
  ∃ m c, dictGet tagClasses tag = some c ∧ objClass m tag = some c ∧
    readWith tables m d = .error .keyError

/-- The objects in a list of texts and objects. -/
def objectsOf : Option (Val Cls) → List (Val Cls)
  | some (.list vs) => vs.filter fun v => match v with
    | .str _ => false
    | _ => true
  | _ => []

/-- An attribute that holds a list. -/
def asList : List (Val Cls) → Option (Val Cls)
  | [] => none
  | vs => some (.list vs)

mutual
/-- What the element says is this value. -/
inductive Says : Dom → Val Cls → Prop
  /-- text, boolean, number, enumeration value -/
  | text {t : String} {as : Attrs} {ds : List Dom} {s : String} {v : Val Cls} :
      leadText ds = some s → TextSays s v → Says (.elem t as ds) v
  /-- number with interval type -/
  | limit {t : String} {as : Attrs} {ds : List Dom} {s : String} {n : PyNum} {m : Member} :
      leadText ds = some s → IsNumber s n →
      (dictGet as "INTERVAL-TYPE" = none → m = ⟨"IntervalType", "CLOSED"⟩) →
      (∀ i, dictGet as "INTERVAL-TYPE" = some i → xmlToEnum "IntervalType" i defaultVersion = .ok m) →
      Says (.elem t as ds) (.limit n m)
  /-- reference -/
  | ref {t : String} {as : Attrs} {ds : List Dom} {r : RefObj} {dest : String} :
      (leadText ds).getD "" = r.value → dictGet as "DEST" = some dest →
      xmlToEnum "IdentifiableSubTypes" dest defaultVersion = .ok ⟨"IdentifiableSubTypes", r.dest⟩ →
      Says (.elem t as ds) (.ref r)
  /-- object: each attribute is what is found in its place, and there are no others -/
  | obj {t : String} {as : Attrs} {ds : List Dom} {c : Cls} {fs : List (String × Val Cls)} :
      (∀ a p, (a, p) ∈ parts c → Found p as ds (dictGet fs a)) →
      (∀ a v, (a, v) ∈ fs → ∃ p, (a, p) ∈ parts c) →
      Says (.elem t as ds) (.obj c fs)
/-- What is found in a place of an element with these XML attributes and children. -/
inductive Found : Place → Attrs → List Dom → Option (Val Cls) → Prop
  | attribute_none {n : String} {as : Attrs} {ds : List Dom} :
      dictGet as n = none → Found (.attribute n) as ds none
  | attribute {n s : String} {as : Attrs} {ds : List Dom} {v : Val Cls} :
      dictGet as n = some s → TextSays s v → Found (.attribute n) as ds (some v)
  | content {as : Attrs} {ds : List Dom} : Found .content as ds ((leadText ds).map .str)
  | text_none {tag : String} {as : Attrs} {ds : List Dom} :
      firstElem tag ds = none → Found (.text tag) as ds none
  | text {tag t : String} {as as' : Attrs} {ds ds' : List Dom} :
      firstElem tag ds = some (.elem t as' ds') →
      Found (.text tag) as ds ((leadText ds').map .str)
  | shown_none {tag : String} {as : Attrs} {ds : List Dom} :
      firstElem tag ds = none → Found (.shown tag) as ds none
  | shown {tag t : String} {as as' : Attrs} {ds ds' : List Dom} :
      firstElem tag ds = some (.elem t as' ds') →
      Found (.shown tag) as ds (some (.str ((leadText ds').getD "None")))
  | child_none {tag : String} {as : Attrs} {ds : List Dom} :
      firstElem tag ds = none → Found (.child tag) as ds none
  | child {tag : String} {as : Attrs} {ds : List Dom} {d : Dom} {v : Val Cls} :
      firstElem tag ds = some d → Says d v → Found (.child tag) as ds (some v)
  | inner_none {tag : String} {tags : List String} {as : Attrs} {ds : List Dom} :
      firstElem tag ds = none → Found (.inner tag tags) as ds none
  | inner_empty {tag t : String} {tags : List String} {as as' : Attrs} {ds ds' : List Dom} :
      firstElem tag ds = some (.elem t as' ds') → elemsOf ds' = [] →
      Found (.inner tag tags) as ds none
  | inner_other {tag t t' : String} {tags : List String} {as as' as'' : Attrs}
      {ds ds' ds'' rest : List Dom} :
      firstElem tag ds = some (.elem t as' ds') → elemsOf ds' = .elem t' as'' ds'' :: rest →
      t' ∉ tags → Found (.inner tag tags) as ds none
  /-- a value in which something is missing is left out (`except KeyError`) -/
  | inner_broken {tag t t' : String} {tags : List String} {as as' as'' : Attrs}
      {ds ds' ds'' rest : List Dom} :
      firstElem tag ds = some (.elem t as' ds') → elemsOf ds' = .elem t' as'' ds'' :: rest →
      t' ∈ tags → Broken t' (.elem t' as'' ds'') → Found (.inner tag tags) as ds none
  | inner {tag t t' : String} {tags : List String} {as as' as'' : Attrs}
      {ds ds' ds'' rest : List Dom} {v : Val Cls} :
      firstElem tag ds = some (.elem t as' ds') → elemsOf ds' = .elem t' as'' ds'' :: rest →
      t' ∈ tags → Kind t' v → Says (.elem t' as'' ds'') v → Found (.inner tag tags) as ds (some v)
  | innerTag_none {tag inside : String} {as : Attrs} {ds : List Dom} :
      firstElem tag ds = none → Found (.innerTag tag inside) as ds none
  | innerTag_empty {tag inside t : String} {as as' : Attrs} {ds ds' : List Dom} :
      firstElem tag ds = some (.elem t as' ds') → firstElem inside ds' = none →
      Found (.innerTag tag inside) as ds none
  | innerTag {tag inside t : String} {as as' : Attrs} {ds ds' : List Dom} {d : Dom} {v : Val Cls} :
      firstElem tag ds = some (.elem t as' ds') → firstElem inside ds' = some d → Says d v →
      Found (.innerTag tag inside) as ds (some v)
  | list_none {tag : String} {tags : List String} {as : Attrs} {ds : List Dom} :
      firstElem tag ds = none → Found (.list tag tags) as ds none
  | list {tag t : String} {tags : List String} {as as' : Attrs} {ds ds' : List Dom}
      {vs : List (Val Cls)} :
      firstElem tag ds = some (.elem t as' ds') → Listed tags ds' vs →
      Found (.list tag tags) as ds (asList vs)
  | direct {tags : List String} {as : Attrs} {ds : List Dom} {vs : List (Val Cls)} :
      Listed tags ds vs → Found (.direct tags) as ds (asList vs)
  | oneOf_none {tags texts : List String} {as : Attrs} {ds : List Dom} :
      (tags.filterMap fun t => firstElem t ds) = [] → Found (.oneOf tags texts) as ds none
  | oneOf_empty {tags texts : List String} {t : String} {as as' : Attrs} {ds ds' : List Dom} :
      (tags.filterMap fun t => firstElem t ds) = [.elem t as' ds'] → t ∈ texts →
      leadText ds' = none → Found (.oneOf tags texts) as ds none
  | oneOf {tags texts : List String} {t : String} {as as' : Attrs} {ds ds' : List Dom}
      {v : Val Cls} :
      (tags.filterMap fun t => firstElem t ds) = [.elem t as' ds'] → Kind t v →
      Says (.elem t as' ds') v → Found (.oneOf tags texts) as ds (some v)
  | pieces {tags : List String} {as : Attrs} {ds : List Dom} {v : Option (Val Cls)} :
      (∀ s, leadText ds = some s → ∃ vs, v = some (.list (.str s :: vs))) →
      Listed tags ds (objectsOf v) → Found (.pieces tags) as ds v
/-- The values of the elements with these tags (no tags: all elements), in order. -/
inductive Listed : List String → List Dom → List (Val Cls) → Prop
  | nil {tags : List String} : Listed tags [] []
  | between {tags : List String} {s : String} {ds : List Dom} {vs : List (Val Cls)} :
      Listed tags ds vs → Listed tags (.text s :: ds) vs
  | skip {tags : List String} {t : String} {as : Attrs} {xs ds : List Dom} {vs : List (Val Cls)} :
      tags ≠ [] → t ∉ tags → Listed tags ds vs → Listed tags (.elem t as xs :: ds) vs
  | any {t : String} {as : Attrs} {xs ds : List Dom} {v : Val Cls} {vs : List (Val Cls)} :
      Says (.elem t as xs) v → Listed [] ds vs → Listed [] (.elem t as xs :: ds) (v :: vs)
  | cons {tags : List String} {t : String} {as : Attrs} {xs ds : List Dom} {v : Val Cls}
      {vs : List (Val Cls)} :
      t ∈ tags → Kind t v → Says (.elem t as xs) v → Listed tags ds vs →
      Listed tags (.elem t as xs :: ds) (v :: vs)
end

end Verif.Codec.Map
