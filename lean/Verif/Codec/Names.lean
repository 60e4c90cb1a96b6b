/-
Names of the element classes (src/autosar/xml/element.py) and of the methods of the writer
(src/autosar/xml/writer.py) and the reader (src/autosar/xml/reader.py) that the method tables
are about.
-/
namespace Verif.Codec

/-- The element classes of src/autosar/xml/element.py that are written and read (with the
abstract ones the writer tests for).  Simplification: the class
`PortInCompositionTypeInstanceRef` (element.py 5227-5243) is split by the place its objects stand in
(`ProviderPortInstanceRef`, `RequesterPortInstanceRef` in assembly connectors,
`InnerProvidedPortInstanceRef`, `InnerRequiredPortInstanceRef` in delegation connectors, by the
destination of the port reference), because writer and reader look at the place, too. -/
inductive Cls where
  | DataFilter
  | AutosarEngineeringObject
  | Code
  | Break
  | EmphasisText
  | IndexEntry
  | TechnicalTerm
  | Subscript
  | Superscript
  | LanguageLongName
  | MultilanguageLongName
  | LanguageOverviewParagraph
  | MultiLanguageOverviewParagraph
  | LanguageParagraph
  | MultiLanguageParagraph
  | LanguageVerbatim
  | MultiLanguageVerbatim
  | SingleLanguageUnitNames
  | DocumentationBlock
  | Annotation
  | CompuRational
  | CompuConst
  | CompuScale
  | Computation
  | CompuMethod
  | ScaleConstraint
  | InternalConstraint
  | PhysicalConstraint
  | DataConstraintRule
  | DataConstraint
  | Unit
  | SwBaseType
  | SwBitRepresentation
  | SwTextProps
  | SwPointerTargetProps
  | SwDataDefPropsConditional
  | SwDataDefProps
  | SymbolProps
  | ImplementationDataTypeElement
  | ImplementationDataType
  | VariableDataPrototype
  | ParameterDataPrototype
  | ArgumentDataPrototype
  | ApplicationPrimitiveDataType
  | ApplicationArrayElement
  | ApplicationArrayDataType
  | ApplicationRecordElement
  | ApplicationRecordDataType
  | DataTypeMap
  | DataTypeMappingSet
  | ValueList
  | SwAddrMethod
  | SwValues
  | ValueGroup
  | SwAxisCont
  | SwValueCont
  | TextValueSpecification
  | NumericalValueSpecification
  | NotAvailableValueSpecification
  | ArrayValueSpecification
  | RecordValueSpecification
  | ApplicationValueSpecification
  | ConstantSpecification
  | ConstantReference
  | ModeDeclaration
  | ModeErrorBehavior
  | ModeTransition
  | ModeDeclarationGroup
  | ModeDeclarationGroupPrototype
  | ModeRequestTypeMap
  | InvalidationPolicy
  | SenderReceiverInterface
  | NvDataInterface
  | ParameterInterface
  | ApplicationError
  | ClientServerOperation
  | ClientServerInterface
  | ModeSwitchInterface
  | E2EProfileCompatibilityProps
  | EndToEndTransformationComSpecProps
  | ModeSwitchedAckRequest
  | TransmissionAcknowledgementRequest
  | TransmissionComSpecProps
  | ModeSwitchSenderComSpec
  | QueuedSenderComSpec
  | NonqueuedSenderComSpec
  | NvProvideComSpec
  | ParameterProvideComSpec
  | ServerComSpec
  | ReceptionComSpecProps
  | QueuedReceiverComSpec
  | NonqueuedReceiverComSpec
  | NvRequireComSpec
  | ParameterRequireComSpec
  | ModeSwitchReceiverComSpec
  | ClientComSpec
  | ProvidePortPrototype
  | RequirePortPrototype
  | PRPortPrototype
  | ApplicationSoftwareComponentType
  | SwComponentPrototype
  | ProviderPortInstanceRef
  | RequesterPortInstanceRef
  | InnerProvidedPortInstanceRef
  | InnerRequiredPortInstanceRef
  | AssemblySwConnector
  | DelegationSwConnector
  | PassThroughSwConnector
  | CompositionSwComponentType
  | POperationInAtomicSwcInstanceRef
  | PModeGroupInAtomicSwcInstanceRef
  | PTriggerInAtomicSwcTypeInstanceRef
  | ROperationInAtomicSwcInstanceRef
  | RModeInAtomicSwcInstanceRef
  | RModeGroupInAtomicSwcInstanceRef
  | RVariableInAtomicSwcInstanceRef
  | RTriggerInAtomicSwcInstanceRef
  | ArVariableInImplementationDataInstanceRef
  | VariableInAtomicSWCTypeInstanceRef
  | AutosarVariableRef
  | VariableAccess
  | SwcImplementation
  | ExecutableEntityActivationReason
  | ExclusiveAreaRefConditional
  | RunnableEntityArgument
  | AsynchronousServerCallPoint
  | AsynchronousServerCallResultPoint
  | SynchronousServerCallPoint
  | ExternalTriggeringPointIdent
  | ExternalTriggeringPoint
  | InternalTriggeringPoint
  | ModeAccessPointIdent
  | ModeAccessPoint
  | ModeSwitchPoint
  | ParameterInAtomicSwcTypeInstanceRef
  | AutosarParameterRef
  | ParameterAccess
  | WaitPoint
  | RunnableEntity
  | AsynchronousServerCallReturnsEvent
  | BackgroundEvent
  | DataReceiveErrorEvent
  | DataReceivedEvent
  | DataSendCompletedEvent
  | DataWriteCompletedEvent
  | ExternalTriggerOccurredEvent
  | InitEvent
  | InternalTriggerOccurredEvent
  | ModeSwitchedAckEvent
  | OperationInvokedEvent
  | SwcModeManagerErrorEvent
  | SwcModeSwitchEvent
  | TimingEvent
  | TransformerHardErrorEvent
  | PortDefinedArgumentValue
  | CommunicationBufferLocking
  | PortApiOption
  | ExclusiveArea
  | SwcInternalBehavior
  | PortInCompositionTypeInstanceRef
  | Package
deriving DecidableEq, Repr

/-- The methods `_write_*` of src/autosar/xml/writer.py 520-4978, without the prefix. -/
inductive WM where
  | annotation
  | multi_language_long_name
  | multi_language_verbatim
  | multi_language_paragraph
  | compu_method
  | computation
  | compu_scale
  | compu_rational
  | data_constraint
  | data_constraint_rule
  | internal_constraint
  | physical_constraint
  | unit
  | data_filter
  | autosar_engineering_object
  | code
  | sw_addr_method
  | sw_base_type
  | sw_data_def_props_conditional
  | sw_bit_represenation
  | sw_text_props
  | sw_pointer_target_props
  | symbol_props
  | implementation_data_type_element
  | implementation_data_type
  | application_primitive_data_type
  | application_array_element
  | application_record_element
  | application_array_data_type
  | application_record_data_type
  | data_type_map
  | data_type_mapping_set
  | value_list
  | variable_data_prototype
  | parameter_data_prototype
  | argument_data_prototype
  | mode_request_type_map
  | compu_method_ref
  | data_constraint_ref
  | function_ptr_signature_ref
  | impl_data_type_ref
  | sw_base_type_ref
  | sw_addr_method_ref
  | unit_ref
  | physical_dimension_ref
  | index_data_type_ref
  | application_data_type_ref
  | constant_ref
  | autosar_data_type_ref
  | variable_data_prototype_ref
  | parameter_data_prototype_ref
  | application_error_ref
  | mode_declaration_ref
  | mode_declaration_group_ref
  | mode_declaration_group_prototype_ref
  | autosar_data_prototype_ref
  | e2e_profile_compatibility_props_ref
  | client_server_operation_ref
  | port_prototype_ref
  | abstract_impl_data_type_element_ref
  | appl_composite_element_data_proto_ref
  | data_prototype_ref
  | port_interface_ref
  | sw_component_type_ref
  | sw_component_prototype_ref
  | exclusive_area_ref
  | exclusive_area_nesting_order_ref
  | abstract_required_port_prototype_ref
  | abstract_provided_port_prototype_ref
  | swc_internal_behavior_ref
  | runnable_entity_ref
  | variable_access_ref
  | mode_switch_point_ref
  | async_server_call_point_ref
  | async_server_call_result_point_ref
  | trigger_ref
  | internal_triggering_point_ref
  | rte_event_ref
  | data_type_mapping_set_ref
  | argument_data_prototype_ref
  | application_array_element_ref
  | application_record_element_ref
  | text_value_specification
  | numerical_value_specification
  | array_value_specification
  | record_value_specification
  | application_value_specification
  | constant_specification
  | constant_reference
  | sw_values
  | value_group
  | sw_axis_cont
  | sw_value_cont
  | mode_declaration
  | mode_error_behavior
  | mode_transition
  | mode_declaration_group
  | mode_declaration_group_prototype
  | nv_data_interface
  | parameter_interface
  | sender_receiver_interface
  | invalidation_policy
  | application_error
  | client_server_operation
  | client_server_interface
  | mode_switch_interface
  | e2e_transformation_com_spec_props
  | e2e_profile_compatibility_props
  | mode_switched_ack_request
  | mode_switch_sender_com_spec
  | transmission_acknowledgement_request
  | tranmsission_com_spec_props
  | queued_sender_com_spec
  | non_queued_sender_com_spec
  | nv_provide_com_spec
  | parameter_provide_com_spec
  | server_com_spec
  | reception_com_spec_props
  | queued_receiver_com_spec
  | nonqueued_receiver_com_spec
  | nv_require_com_spec
  | parameter_require_com_spec
  | mode_switch_receiver_com_spec
  | client_com_spec
  | provide_port_prototype
  | require_port_prototype
  | pr_port_prototype
  | application_software_component_type
  | sw_component_prototype
  | assembly_sw_connector
  | passthrough_sw_connector
  | composition_sw_component_type
  | swc_implementation
  | p_mode_group_in_atomic_swc_instance_ref
  | p_operation_in_atomic_swc_instance_ref
  | p_trigger_in_atomic_swc_instance_ref
  | r_mode_in_atomic_swc_instance_ref
  | r_mode_group_in_atomic_swc_instance_ref
  | r_operation_in_atomic_swc_instance_ref
  | r_variable_in_atomic_swc_instance_ref
  | r_trigger_in_atomic_swc_instance_ref
  | variable_in_impl_data_instance_ref
  | variable_in_atomic_swc_type_instance_ref
  | autosar_variable_ref
  | variable_access
  | runnable_entity_argument
  | executable_entity_activation_reason
  | exclusive_area_ref_conditional
  | async_server_call_point
  | sync_server_call_point
  | async_server_call_result_point
  | external_triggering_point_ident
  | external_triggering_point
  | internal_triggering_point
  | mode_access_point_ident
  | mode_access_point
  | mode_switch_point
  | parameter_in_atomic_swc_type_instance_ref
  | autosar_parameter_ref
  | parameter_access
  | wait_point
  | runnable_entity
  | async_server_call_returns_event
  | background_event
  | data_receive_error_event
  | data_received_event
  | data_send_completed_event
  | data_write_completed_event
  | external_trigger_occured_event
  | init_event
  | internal_trigger_occured_event
  | mode_switched_ack_event
  | operation_invoked_event
  | swc_mode_manager_error_event
  | swc_mode_switch_event
  | timing_event
  | transformer_hard_error_event
  | port_defined_argument_value
  | communication_buffer_locking
  | port_api_option
  | exclusive_area
  | swc_internal_behavior
  | «break»
  | documentation_block
  | emphasis_text
  | index_entry
  | technical_term
  | superscript
  | subscript
  | language_long_name
  | language_overview_paragraph
  | language_paragraph
  | language_verbatim
  | single_language_unit_names
  | multi_language_overview_paragraph
  | compu_const
  | scale_constraint
  | sw_data_def_props
  | not_available_value_specification
  | port_in_composition_type_instance_ref
  | delegation_sw_connector
  | package
deriving DecidableEq, Repr

/-- The methods `_read_*` of src/autosar/xml/reader.py 621-5766, without the prefix. -/
inductive RM where
  | compu_method
  | computation
  | compu_rational
  | data_constraint
  | data_constraint_rule
  | internal_constraint
  | physical_constraint
  | scale_constraint
  | unit
  | data_filter
  | autosar_engineering_object
  | code
  | sw_addr_method
  | sw_base_type
  | sw_bit_representation
  | sw_data_def_props
  | sw_data_def_props_conditional
  | sw_text_props
  | sw_pointer_target_props
  | symbol_props
  | implementation_data_type_element
  | implementation_data_type
  | application_primitive_data_type
  | application_array_element
  | application_record_element
  | application_array_data_type
  | application_record_data_type
  | data_type_map
  | data_type_mapping_set
  | parameter_data_prototype
  | variable_data_prototype
  | argument_data_prototype
  | mode_request_type_map
  | compu_method_ref
  | data_constraint_ref
  | function_ptr_signature_ref
  | impl_data_type_ref
  | sw_base_type_ref
  | sw_addr_method_ref
  | unit_ref
  | physical_dimension_ref
  | index_data_type_ref
  | application_data_type_ref
  | autosar_data_type_ref
  | constant_ref
  | variable_data_prototype_ref
  | parameter_data_prototype_ref
  | application_error_ref
  | mode_declaration_ref
  | mode_declaration_group_ref
  | mode_declaration_group_prototype_ref
  | autosar_data_prototype_ref
  | e2e_profile_compatibility_props_ref
  | client_server_operation_ref
  | port_prototype_ref
  | abstract_impl_data_type_element_ref
  | appl_composite_element_data_proto_ref
  | data_prototype_ref
  | port_interface_ref
  | sw_component_type_ref
  | sw_component_prototype_ref
  | swc_internal_behavior_ref
  | exclusive_area_ref
  | exclusive_area_nesting_order_ref
  | abstract_required_port_prototype_ref
  | abstract_provided_port_prototype_ref
  | runnable_entity_ref
  | variable_access_ref
  | mode_switch_point_ref
  | async_server_call_point_ref
  | async_server_call_result_point_ref
  | trigger_ref
  | internal_triggering_point_ref
  | rte_event_ref
  | data_type_mapping_set_ref
  | argument_data_prototype_ref
  | application_array_element_ref
  | application_record_element_ref
  | text_value_specification
  | numerical_value_specification
  | not_available_value_specification
  | array_value_specification
  | record_value_specification
  | application_value_specification
  | constant_specification
  | constant_reference
  | sw_axis_cont
  | sw_value_cont
  | mode_declaration
  | mode_error_behavior
  | mode_transition
  | mode_declaration_group
  | mode_declaration_group_prototype
  | nv_data_interface
  | parameter_interface
  | sender_receiver_interface
  | invalidation_policy
  | application_error
  | client_server_operation
  | client_server_interface
  | mode_switch_interface
  | e2e_transformation_com_spec_props
  | e2e_profile_compatibility_props
  | mode_switched_ack_request
  | mode_switch_sender_com_spec
  | transmission_acknowledgement_request
  | tranmsission_com_spec_props
  | queued_sender_com_spec
  | nonqueued_sender_com_spec
  | nv_provider_com_spec
  | parameter_provide_com_spec
  | server_com_spec
  | reception_com_spec_props
  | queued_receiver_com_spec
  | nonqueued_receiver_com_spec
  | nv_require_com_spec
  | parameter_require_com_spec
  | mode_switch_receiver_com_spec
  | client_com_spec
  | provide_port_prototype
  | require_port_prototype
  | pr_port_prototype
  | application_sw_component_type
  | sw_component_prototype
  | assembly_sw_connector
  | pass_through_sw_connector
  | composition_sw_component_type
  | swc_implementation
  | p_mode_group_in_atomic_swc_instance_ref
  | p_operation_in_atomic_swc_instance_ref
  | p_trigger_in_atomic_swc_instance_ref
  | r_mode_in_atomic_swc_instance_ref
  | r_mode_group_in_atomic_swc_instance_ref
  | r_operation_in_atomic_swc_instance_ref
  | r_variable_in_atomic_swc_instance_ref
  | r_trigger_in_atomic_swc_instance_ref
  | variable_in_impl_data_instance_ref
  | variable_access
  | autosar_variable_ref
  | executable_entity_activation_reason
  | exclusive_area_ref_conditional
  | runnable_entity_argument
  | async_server_call_point
  | sync_server_call_point
  | async_server_call_result_point
  | external_triggering_point_ident
  | external_triggering_point
  | internal_triggering_point
  | mode_access_point_ident
  | mode_switch_point
  | autosar_parameter_ref
  | parameter_access
  | wait_point
  | runnable_entity
  | async_server_call_returns_event
  | background_event
  | data_receive_error_event
  | data_received_event
  | data_send_completed_event
  | data_write_completed_event
  | external_trigger_occured_event
  | init_event
  | internal_trigger_occured_event
  | mode_switched_ack_event
  | operation_invoked_event
  | swc_mode_manager_error_event
  | swc_mode_switch_event
  | timing_event
  | transformer_hard_error_event
  | port_defined_argument_value
  | communication_buffer_locking
  | port_api_option
  | exclusive_area
  | swc_internal_behavior
  | annotation
  | «break»
  | documentation_block
  | emphasis_text
  | index_entry
  | technical_term
  | superscript
  | subscript
  | multi_language_long_name
  | language_long_name
  | language_overview_paragraph
  | language_paragraph
  | language_verbatim
  | multi_language_overview_paragraph
  | multi_language_paragraph
  | multi_language_verbatim
  | single_language_unit_names
  | compu_scale
  | compu_const
  | value_list
  | sw_values
  | value_group
  | port_in_composition_type_instance_ref
  | delegation_sw_connector
  | variable_in_atomic_swc_type_instance_ref
  | mode_access_point
  | parameter_in_atomic_swc_type_instance_ref
  | package
deriving DecidableEq, Repr

/-- A class with its base classes (the `class` lines of src/autosar/xml/element.py), as far as
they are in `Cls`. -/
def mro : Cls → List Cls
  | .ValueGroup => [.ValueGroup, .SwValues]
  | .ProviderPortInstanceRef => [.ProviderPortInstanceRef, .PortInCompositionTypeInstanceRef]
  | .RequesterPortInstanceRef => [.RequesterPortInstanceRef, .PortInCompositionTypeInstanceRef]
  | .InnerProvidedPortInstanceRef => [.InnerProvidedPortInstanceRef, .PortInCompositionTypeInstanceRef]
  | .InnerRequiredPortInstanceRef => [.InnerRequiredPortInstanceRef, .PortInCompositionTypeInstanceRef]
  | c => [c]

end Verif.Codec
