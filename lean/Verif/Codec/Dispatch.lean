import Verif.Codec.Tables
import Verif.Xml.Writer
import Verif.Xml.Parse
/-
Writing a single element to a string and reading it back: the tables by class name and by tag, and
`Writer.write_str_elem`, `Reader.read_str_elem`.
-/
namespace Verif.Codec
open Verif.Py Verif.Xml Verif.Xml.Spec

/-- `Writer.switcher_collectable` without packages, src/autosar/xml/writer.py 191-228. -/
def writerCollectable : Cls → Option WM
  | .CompuMethod => some .compu_method
  | .DataFilter => some .data_filter
  | .AutosarEngineeringObject => some .autosar_engineering_object
  | .Code => some .code
  | .ApplicationArrayDataType => some .application_array_data_type
  | .ApplicationRecordDataType => some .application_record_data_type
  | .ApplicationPrimitiveDataType => some .application_primitive_data_type
  | .SwBaseType => some .sw_base_type
  | .SwAddrMethod => some .sw_addr_method
  | .ImplementationDataType => some .implementation_data_type
  | .DataTypeMappingSet => some .data_type_mapping_set
  | .DataConstraint => some .data_constraint
  | .Unit => some .unit
  | .ConstantSpecification => some .constant_specification
  | .NvDataInterface => some .nv_data_interface
  | .ParameterInterface => some .parameter_interface
  | .SenderReceiverInterface => some .sender_receiver_interface
  | .ClientServerInterface => some .client_server_interface
  | .ModeSwitchInterface => some .mode_switch_interface
  | .ModeDeclarationGroup => some .mode_declaration_group
  | .E2EProfileCompatibilityProps => some .e2e_profile_compatibility_props
  | .ApplicationSoftwareComponentType => some .application_software_component_type
  | .CompositionSwComponentType => some .composition_sw_component_type
  | .SwcImplementation => some .swc_implementation
  | _ => none

/-- `Writer.switcher_all` without packages and references, src/autosar/xml/writer.py 191-399. -/
def writerSwitch : Cls → Option WM
  | .CompuMethod => some .compu_method
  | .DataFilter => some .data_filter
  | .AutosarEngineeringObject => some .autosar_engineering_object
  | .Code => some .code
  | .ApplicationArrayDataType => some .application_array_data_type
  | .ApplicationRecordDataType => some .application_record_data_type
  | .ApplicationPrimitiveDataType => some .application_primitive_data_type
  | .SwBaseType => some .sw_base_type
  | .SwAddrMethod => some .sw_addr_method
  | .ImplementationDataType => some .implementation_data_type
  | .DataTypeMappingSet => some .data_type_mapping_set
  | .DataConstraint => some .data_constraint
  | .Unit => some .unit
  | .ConstantSpecification => some .constant_specification
  | .NvDataInterface => some .nv_data_interface
  | .ParameterInterface => some .parameter_interface
  | .SenderReceiverInterface => some .sender_receiver_interface
  | .ClientServerInterface => some .client_server_interface
  | .ModeSwitchInterface => some .mode_switch_interface
  | .ModeDeclarationGroup => some .mode_declaration_group
  | .E2EProfileCompatibilityProps => some .e2e_profile_compatibility_props
  | .ApplicationSoftwareComponentType => some .application_software_component_type
  | .CompositionSwComponentType => some .composition_sw_component_type
  | .SwcImplementation => some .swc_implementation
  | .TextValueSpecification => some .text_value_specification
  | .NumericalValueSpecification => some .numerical_value_specification
  | .NotAvailableValueSpecification => some .not_available_value_specification
  | .ArrayValueSpecification => some .array_value_specification
  | .RecordValueSpecification => some .record_value_specification
  | .ApplicationValueSpecification => some .application_value_specification
  | .ConstantReference => some .constant_reference
  | .ModeSwitchSenderComSpec => some .mode_switch_sender_com_spec
  | .QueuedSenderComSpec => some .queued_sender_com_spec
  | .NonqueuedSenderComSpec => some .non_queued_sender_com_spec
  | .NvProvideComSpec => some .nv_provide_com_spec
  | .ParameterProvideComSpec => some .parameter_provide_com_spec
  | .ServerComSpec => some .server_com_spec
  | .QueuedReceiverComSpec => some .queued_receiver_com_spec
  | .NonqueuedReceiverComSpec => some .nonqueued_receiver_com_spec
  | .NvRequireComSpec => some .nv_require_com_spec
  | .ParameterRequireComSpec => some .parameter_require_com_spec
  | .ModeSwitchReceiverComSpec => some .mode_switch_receiver_com_spec
  | .ClientComSpec => some .client_com_spec
  | .Annotation => some .annotation
  | .Break => some .«break»
  | .DocumentationBlock => some .documentation_block
  | .EmphasisText => some .emphasis_text
  | .IndexEntry => some .index_entry
  | .MultilanguageLongName => some .multi_language_long_name
  | .MultiLanguageOverviewParagraph => some .multi_language_overview_paragraph
  | .MultiLanguageParagraph => some .multi_language_paragraph
  | .MultiLanguageVerbatim => some .multi_language_verbatim
  | .LanguageLongName => some .language_long_name
  | .LanguageParagraph => some .language_paragraph
  | .LanguageVerbatim => some .language_verbatim
  | .SingleLanguageUnitNames => some .single_language_unit_names
  | .Superscript => some .superscript
  | .Subscript => some .subscript
  | .TechnicalTerm => some .technical_term
  | .Computation => some .computation
  | .CompuRational => some .compu_rational
  | .CompuScale => some .compu_scale
  | .ScaleConstraint => some .scale_constraint
  | .InternalConstraint => some .internal_constraint
  | .PhysicalConstraint => some .physical_constraint
  | .DataConstraintRule => some .data_constraint_rule
  | .SwDataDefPropsConditional => some .sw_data_def_props_conditional
  | .SwBitRepresentation => some .sw_bit_represenation
  | .SwTextProps => some .sw_text_props
  | .SwPointerTargetProps => some .sw_pointer_target_props
  | .SymbolProps => some .symbol_props
  | .ImplementationDataTypeElement => some .implementation_data_type_element
  | .ApplicationArrayElement => some .application_array_element
  | .ApplicationRecordElement => some .application_record_element
  | .DataTypeMap => some .data_type_map
  | .ValueList => some .value_list
  | .VariableDataPrototype => some .variable_data_prototype
  | .ParameterDataPrototype => some .parameter_data_prototype
  | .ArgumentDataPrototype => some .argument_data_prototype
  | .ModeRequestTypeMap => some .mode_request_type_map
  | .SwValues => some .sw_values
  | .SwAxisCont => some .sw_axis_cont
  | .SwValueCont => some .sw_value_cont
  | .InvalidationPolicy => some .invalidation_policy
  | .ApplicationError => some .application_error
  | .ClientServerOperation => some .client_server_operation
  | .ModeDeclaration => some .mode_declaration
  | .ModeErrorBehavior => some .mode_error_behavior
  | .ModeTransition => some .mode_transition
  | .ModeDeclarationGroupPrototype => some .mode_declaration_group_prototype
  | .EndToEndTransformationComSpecProps => some .e2e_transformation_com_spec_props
  | .ModeSwitchedAckRequest => some .mode_switched_ack_request
  | .TransmissionAcknowledgementRequest => some .transmission_acknowledgement_request
  | .TransmissionComSpecProps => some .tranmsission_com_spec_props
  | .ReceptionComSpecProps => some .reception_com_spec_props
  | .ProvidePortPrototype => some .provide_port_prototype
  | .RequirePortPrototype => some .require_port_prototype
  | .PRPortPrototype => some .pr_port_prototype
  | .SwComponentPrototype => some .sw_component_prototype
  | .ProviderPortInstanceRef => some .port_in_composition_type_instance_ref
  | .RequesterPortInstanceRef => some .port_in_composition_type_instance_ref
  | .InnerProvidedPortInstanceRef => some .port_in_composition_type_instance_ref
  | .InnerRequiredPortInstanceRef => some .port_in_composition_type_instance_ref
  | .AssemblySwConnector => some .assembly_sw_connector
  | .DelegationSwConnector => some .delegation_sw_connector
  | .PassThroughSwConnector => some .passthrough_sw_connector
  | .RModeInAtomicSwcInstanceRef => some .r_mode_in_atomic_swc_instance_ref
  | .RModeGroupInAtomicSwcInstanceRef => some .r_mode_group_in_atomic_swc_instance_ref
  | .ArVariableInImplementationDataInstanceRef => some .variable_in_impl_data_instance_ref
  | .VariableInAtomicSWCTypeInstanceRef => some .variable_in_atomic_swc_type_instance_ref
  | .AutosarVariableRef => some .autosar_variable_ref
  | .VariableAccess => some .variable_access
  | .SwcInternalBehavior => some .swc_internal_behavior
  | .ExecutableEntityActivationReason => some .executable_entity_activation_reason
  | .ExclusiveAreaRefConditional => some .exclusive_area_ref_conditional
  | .RunnableEntityArgument => some .runnable_entity_argument
  | .RunnableEntity => some .runnable_entity
  | .AsynchronousServerCallReturnsEvent => some .async_server_call_returns_event
  | .BackgroundEvent => some .background_event
  | .DataReceiveErrorEvent => some .data_receive_error_event
  | .DataReceivedEvent => some .data_received_event
  | .DataSendCompletedEvent => some .data_send_completed_event
  | .DataWriteCompletedEvent => some .data_write_completed_event
  | .ExternalTriggerOccurredEvent => some .external_trigger_occured_event
  | .InitEvent => some .init_event
  | .InternalTriggerOccurredEvent => some .internal_trigger_occured_event
  | .ModeSwitchedAckEvent => some .mode_switched_ack_event
  | .OperationInvokedEvent => some .operation_invoked_event
  | .SwcModeManagerErrorEvent => some .swc_mode_manager_error_event
  | .SwcModeSwitchEvent => some .swc_mode_switch_event
  | .TimingEvent => some .timing_event
  | .TransformerHardErrorEvent => some .transformer_hard_error_event
  | .PortDefinedArgumentValue => some .port_defined_argument_value
  | .CommunicationBufferLocking => some .communication_buffer_locking
  | .PortApiOption => some .port_api_option
  | .AsynchronousServerCallPoint => some .async_server_call_point
  | .SynchronousServerCallPoint => some .sync_server_call_point
  | .AsynchronousServerCallResultPoint => some .async_server_call_result_point
  | .ExternalTriggeringPoint => some .external_triggering_point
  | .InternalTriggeringPoint => some .internal_triggering_point
  | .ModeAccessPoint => some .mode_access_point
  | .ModeSwitchPoint => some .mode_switch_point
  | .ParameterInAtomicSwcTypeInstanceRef => some .parameter_in_atomic_swc_type_instance_ref
  | .AutosarParameterRef => some .autosar_parameter_ref
  | .ParameterAccess => some .parameter_access
  | .WaitPoint => some .wait_point
  | _ => none

/-- The references in `Writer.switcher_all`, src/autosar/xml/writer.py 274-392. -/
def refSwitch : String → Option WM
  | "SwBaseTypeRef" => some .sw_base_type_ref
  | "PhysicalDimensionRef" => some .physical_dimension_ref
  | "ApplicationDataTypeRef" => some .application_data_type_ref
  | "ConstantRef" => some .constant_ref
  | _ => none

/-- `Reader.switcher_collectable`, src/autosar/xml/reader.py 130-176. -/
def readerCollectable : List (String × RM) :=
  [("COMPU-METHOD", .compu_method),
   ("DATA-FILTER", .data_filter),
   ("AUTOSAR-ENGINEERING-OBJECT", .autosar_engineering_object),
   ("CODE", .code),
   ("APPLICATION-ARRAY-DATA-TYPE", .application_array_data_type),
   ("APPLICATION-RECORD-DATA-TYPE", .application_record_data_type),
   ("APPLICATION-PRIMITIVE-DATA-TYPE", .application_primitive_data_type),
   ("SW-BASE-TYPE", .sw_base_type),
   ("SW-ADDR-METHOD", .sw_addr_method),
   ("IMPLEMENTATION-DATA-TYPE", .implementation_data_type),
   ("DATA-TYPE-MAPPING-SET", .data_type_mapping_set),
   ("DATA-CONSTR", .data_constraint),
   ("NV-DATA-INTERFACE", .nv_data_interface),
   ("PARAMETER-INTERFACE", .parameter_interface),
   ("SENDER-RECEIVER-INTERFACE", .sender_receiver_interface),
   ("CLIENT-SERVER-INTERFACE", .client_server_interface),
   ("MODE-SWITCH-INTERFACE", .mode_switch_interface),
   ("UNIT", .unit),
   ("CONSTANT-SPECIFICATION", .constant_specification),
   ("MODE-DECLARATION-GROUP", .mode_declaration_group),
   ("E-2-E-PROFILE-COMPATIBILITY-PROPS", .e2e_profile_compatibility_props),
   ("APPLICATION-SW-COMPONENT-TYPE", .application_sw_component_type),
   ("COMPOSITION-SW-COMPONENT-TYPE", .composition_sw_component_type),
   ("SWC-IMPLEMENTATION", .swc_implementation)]

/-- `Reader.switcher_all`, src/autosar/xml/reader.py 130-343. -/
def readerSwitch : List (String × RM) :=
  [("COMPU-METHOD", .compu_method),
   ("DATA-FILTER", .data_filter),
   ("AUTOSAR-ENGINEERING-OBJECT", .autosar_engineering_object),
   ("CODE", .code),
   ("APPLICATION-ARRAY-DATA-TYPE", .application_array_data_type),
   ("APPLICATION-RECORD-DATA-TYPE", .application_record_data_type),
   ("APPLICATION-PRIMITIVE-DATA-TYPE", .application_primitive_data_type),
   ("SW-BASE-TYPE", .sw_base_type),
   ("SW-ADDR-METHOD", .sw_addr_method),
   ("IMPLEMENTATION-DATA-TYPE", .implementation_data_type),
   ("DATA-TYPE-MAPPING-SET", .data_type_mapping_set),
   ("DATA-CONSTR", .data_constraint),
   ("NV-DATA-INTERFACE", .nv_data_interface),
   ("PARAMETER-INTERFACE", .parameter_interface),
   ("SENDER-RECEIVER-INTERFACE", .sender_receiver_interface),
   ("CLIENT-SERVER-INTERFACE", .client_server_interface),
   ("MODE-SWITCH-INTERFACE", .mode_switch_interface),
   ("UNIT", .unit),
   ("CONSTANT-SPECIFICATION", .constant_specification),
   ("MODE-DECLARATION-GROUP", .mode_declaration_group),
   ("E-2-E-PROFILE-COMPATIBILITY-PROPS", .e2e_profile_compatibility_props),
   ("APPLICATION-SW-COMPONENT-TYPE", .application_sw_component_type),
   ("COMPOSITION-SW-COMPONENT-TYPE", .composition_sw_component_type),
   ("SWC-IMPLEMENTATION", .swc_implementation),
   ("TEXT-VALUE-SPECIFICATION", .text_value_specification),
   ("NUMERICAL-VALUE-SPECIFICATION", .numerical_value_specification),
   ("NOT-AVAILABLE-VALUE-SPECIFICATION", .not_available_value_specification),
   ("ARRAY-VALUE-SPECIFICATION", .array_value_specification),
   ("RECORD-VALUE-SPECIFICATION", .record_value_specification),
   ("APPLICATION-VALUE-SPECIFICATION", .application_value_specification),
   ("CONSTANT-REFERENCE", .constant_reference),
   ("QUEUED-SENDER-COM-SPEC", .queued_sender_com_spec),
   ("MODE-SWITCH-SENDER-COM-SPEC", .mode_switch_sender_com_spec),
   ("NONQUEUED-SENDER-COM-SPEC", .nonqueued_sender_com_spec),
   ("NV-PROVIDE-COM-SPEC", .nv_provider_com_spec),
   ("PARAMETER-PROVIDE-COM-SPEC", .parameter_provide_com_spec),
   ("SERVER-COM-SPEC", .server_com_spec),
   ("QUEUED-RECEIVER-COM-SPEC", .queued_receiver_com_spec),
   ("NONQUEUED-RECEIVER-COM-SPEC", .nonqueued_receiver_com_spec),
   ("NV-REQUIRE-COM-SPEC", .nv_require_com_spec),
   ("PARAMETER-REQUIRE-COM-SPEC", .parameter_require_com_spec),
   ("MODE-SWITCH-RECEIVER-COM-SPEC", .mode_switch_receiver_com_spec),
   ("CLIENT-COM-SPEC", .client_com_spec),
   ("ANNOTATION", .annotation),
   ("ANNOTATION-TEXT", .documentation_block),
   ("BR", .«break»),
   ("DESC", .multi_language_overview_paragraph),
   ("E", .emphasis_text),
   ("IE", .index_entry),
   ("L-4", .language_long_name),
   ("L-1", .language_paragraph),
   ("L-5", .language_verbatim),
   ("LABEL", .multi_language_long_name),
   ("LONG-NAME", .multi_language_long_name),
   ("P", .multi_language_paragraph),
   ("DISPLAY-NAME", .single_language_unit_names),
   ("SUP", .superscript),
   ("SUB", .subscript),
   ("TT", .technical_term),
   ("VERBATIM", .multi_language_verbatim),
   ("COMPU-INTERNAL-TO-PHYS", .computation),
   ("COMPU-RATIONAL-COEFFS", .compu_rational),
   ("COMPU-SCALE", .compu_scale),
   ("SCALE-CONSTR", .scale_constraint),
   ("INTERNAL-CONSTRS", .internal_constraint),
   ("PHYS-CONSTRS", .physical_constraint),
   ("DATA-CONSTR-RULE", .data_constraint_rule),
   ("BASE-TYPE-REF", .sw_base_type_ref),
   ("SW-BIT-REPRESENTATION", .sw_bit_representation),
   ("SW-DATA-DEF-PROPS-CONDITIONAL", .sw_data_def_props_conditional),
   ("SW-TEXT-PROPS", .sw_text_props),
   ("SW-POINTER-TARGET-PROPS", .sw_pointer_target_props),
   ("SYMBOL-PROPS", .symbol_props),
   ("IMPLEMENTATION-DATA-TYPE-ELEMENT", .implementation_data_type_element),
   ("APPLICATION-RECORD-ELEMENT", .application_record_element),
   ("ARGUMENT-DATA-PROTOTYPE", .argument_data_prototype),
   ("DATA-TYPE-MAP", .data_type_map),
   ("SW-ARRAYSIZE", .value_list),
   ("MODE-REQUEST-TYPE-MAP", .mode_request_type_map),
   ("SW-VALUES-PHYS", .sw_values),
   ("SW-AXIS-CONT", .sw_axis_cont),
   ("SW-VALUE-CONT", .sw_value_cont),
   ("PHYSICAL-DIMENSION-REF", .physical_dimension_ref),
   ("APPLICATION-DATA-TYPE-REF", .application_data_type_ref),
   ("CONSTANT-REF", .constant_ref),
   ("INVALIDATION-POLICY", .invalidation_policy),
   ("APPLICATION-ERROR", .application_error),
   ("CLIENT-SERVER-OPERATION", .client_server_operation),
   ("MODE-DECLARATION", .mode_declaration),
   ("MODE-MANAGER-ERROR-BEHAVIOR", .mode_error_behavior),
   ("MODE-USER-ERROR-BEHAVIOR", .mode_error_behavior),
   ("MODE-TRANSITION", .mode_transition),
   ("MODE-DECLARATION-GROUP-PROTOTYPE", .mode_declaration_group_prototype),
   ("END-TO-END-TRANSFORMATION-COM-SPEC-PROPS", .e2e_transformation_com_spec_props),
   ("MODE-SWITCHED-ACK", .mode_switched_ack_request),
   ("TRANSMISSION-PROPS", .tranmsission_com_spec_props),
   ("TRANSMISSION-ACKNOWLEDGE", .transmission_acknowledgement_request),
   ("RECEPTION-PROPS", .reception_com_spec_props),
   ("P-PORT-PROTOTYPE", .provide_port_prototype),
   ("R-PORT-PROTOTYPE", .require_port_prototype),
   ("PR-PORT-PROTOTYPE", .pr_port_prototype),
   ("SW-COMPONENT-PROTOTYPE", .sw_component_prototype),
   ("PROVIDER-IREF", .port_in_composition_type_instance_ref),
   ("REQUESTER-IREF", .port_in_composition_type_instance_ref),
   ("ASSEMBLY-SW-CONNECTOR", .assembly_sw_connector),
   ("DELEGATION-SW-CONNECTOR", .delegation_sw_connector),
   ("PASS-THROUGH-SW-CONNECTOR", .pass_through_sw_connector),
   ("R-MODE-GROUP-IN-ATOMIC-SWC-INSTANCE-REF", .r_mode_group_in_atomic_swc_instance_ref),
   ("AUTOSAR-VARIABLE-IN-IMPL-DATATYPE", .variable_in_impl_data_instance_ref),
   ("AUTOSAR-VARIABLE-IREF", .variable_in_atomic_swc_type_instance_ref),
   ("ACCESSED-VARIABLE", .autosar_variable_ref),
   ("VARIABLE-ACCESS", .variable_access),
   ("EXECUTABLE-ENTITY-ACTIVATION-REASON", .executable_entity_activation_reason),
   ("EXCLUSIVE-AREA-REF-CONDITIONAL", .exclusive_area_ref_conditional),
   ("DISABLED-MODE-IREF", .r_mode_in_atomic_swc_instance_ref),
   ("SWC-INTERNAL-BEHAVIOR", .swc_internal_behavior),
   ("RUNNABLE-ENTITY-ARGUMENT", .runnable_entity_argument),
   ("RUNNABLE-ENTITY", .runnable_entity),
   ("ASYNCHRONOUS-SERVER-CALL-RETURNS-EVENT", .async_server_call_returns_event),
   ("BACKGROUND-EVENT", .background_event),
   ("DATA-RECEIVE-ERROR-EVENT", .data_receive_error_event),
   ("DATA-RECEIVED-EVENT", .data_received_event),
   ("DATA-SEND-COMPLETED-EVENT", .data_send_completed_event),
   ("DATA-WRITE-COMPLETED-EVENT", .data_write_completed_event),
   ("EXTERNAL-TRIGGER-OCCURRED-EVENT", .external_trigger_occured_event),
   ("INIT-EVENT", .init_event),
   ("INTERNAL-TRIGGER-OCCURRED-EVENT", .internal_trigger_occured_event),
   ("MODE-SWITCHED-ACK-EVENT", .mode_switched_ack_event),
   ("OPERATION-INVOKED-EVENT", .operation_invoked_event),
   ("SWC-MODE-MANAGER-ERROR-EVENT", .swc_mode_manager_error_event),
   ("SWC-MODE-SWITCH-EVENT", .swc_mode_switch_event),
   ("TIMING-EVENT", .timing_event),
   ("TRANSFORMER-HARD-ERROR-EVENT", .transformer_hard_error_event),
   ("PORT-DEFINED-ARGUMENT-VALUE", .port_defined_argument_value),
   ("COMMUNICATION-BUFFER-LOCKING", .communication_buffer_locking),
   ("PORT-API-OPTION", .port_api_option),
   ("ASYNCHRONOUS-SERVER-CALL-POINT", .async_server_call_point),
   ("SYNCHRONOUS-SERVER-CALL-POINT", .sync_server_call_point),
   ("ASYNCHRONOUS-SERVER-CALL-RESULT-POINT", .async_server_call_result_point),
   ("EXTERNAL-TRIGGERING-POINT", .external_triggering_point),
   ("INTERNAL-TRIGGERING-POINT", .internal_triggering_point),
   ("MODE-ACCESS-POINT", .mode_access_point),
   ("MODE-SWITCH-POINT", .mode_switch_point),
   ("AUTOSAR-PARAMETER-IREF", .parameter_in_atomic_swc_type_instance_ref),
   ("ACCESSED-PARAMETER", .autosar_parameter_ref),
   ("PARAMETER-ACCESS", .parameter_access),
   ("WAIT-POINT", .wait_point)]

/-- `Reader._switcher_type_name`, src/autosar/xml/reader.py 344-348. -/
def typeSwitch : List (String × RM) :=
  [("ApplicationArrayElement", .application_array_element),
   ("ParameterDataPrototype", .parameter_data_prototype),
   ("VariableDataPrototype", .variable_data_prototype)]

/-- The writer method for an object, by the name of its class. -/
def writerOf : Val Cls → Option WM
  | .obj c _ => writerSwitch c
  | .ref r => refSwitch r.cls
  | _ => none

/-- The method can be called with this tag argument: methods that write a tag of their own have no
such parameter, the others need one.  The inline elements (`leaf`) take a second argument
(`inline`) that makes no difference for a single element. -/
def callable (m : WM) (tag : Option String) : Bool :=
  match wm m tag, tag with
  | .leaf _ _ _ _ _, _ => true
  | .node _ (some _) _ _ _, some _ | .ref _ (some _), some _ | .mixed _ (some _) _ _ _, some _ => false
  | .node _ none _ _ _, none | .ref _ none, none | .mixed _ none _ _ _, none | .bad _, none => false
  | _, _ => true

/-- `Writer.write_str_elem(elem, tag)`, src/autosar/xml/writer.py 417-432. -/
def writeStrElem (tag : Option String) (v : Val Cls) : Except PyErr (List Char) :=
  match writerOf v with
  | none => .error .notImplemented
  | some m =>
    if callable m tag then
      match writeWith tables m tag v with
      | .ok [x] => writeElem x
      | .ok _ => .error .notImplemented
      | .error e => .error e
    else .error .typeError

/-- The reader method for an element. -/
def readerOf (typeName : Option String) (tag : String) : Option RM :=
  match typeName with
  | some n => dictGet typeSwitch n
  | none => dictGet readerSwitch tag

/-- `Reader.read_str_elem(xml, type_name)`, src/autosar/xml/reader.py 380-394, for what the XML parser
made of the text. -/
def readTreeElem (typeName : Option String) : Dom → Except PyErr (Val Cls)
  | .elem tag as ds =>
    match readerOf typeName tag with
    | some m => readWith tables m (.elem tag as ds)
    | none => .error .notImplemented
  | .text _ => .error .parseError

/-- `Reader.read_str_elem(xml, type_name)`, src/autosar/xml/reader.py 380-394.  The error for text
that is not well formed is the parser's. -/
def readStrElem (typeName : Option String) (text : List Char) : Except PyErr (Val Cls) :=
  match parseElement text with
  | some d => readTreeElem typeName d
  | none => .error .parseError

end Verif.Codec
