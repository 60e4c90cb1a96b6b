import Verif.Codec.Writer
import Verif.Codec.Reader
import Verif.Codec.Schema
import Verif.Codec.Check
/-
The tables of all methods and classes, and which writer and reader methods belong together.
-/
namespace Verif.Codec

/-- Writer methods by name; `tag` is the tag parameter of methods that have one. -/
def wm (m : WM) (tag : Option String) : WMethod Cls WM :=
  match m with
  | .annotation => Writer.annotation
  | .multi_language_long_name => Writer.multi_language_long_name
  | .multi_language_verbatim => Writer.multi_language_verbatim
  | .multi_language_paragraph => Writer.multi_language_paragraph
  | .compu_method => Writer.compu_method
  | .computation => Writer.computation
  | .compu_scale => Writer.compu_scale
  | .compu_rational => Writer.compu_rational
  | .data_constraint => Writer.data_constraint
  | .data_constraint_rule => Writer.data_constraint_rule
  | .internal_constraint => Writer.internal_constraint
  | .physical_constraint => Writer.physical_constraint
  | .unit => Writer.unit
  | .data_filter => Writer.data_filter
  | .autosar_engineering_object => Writer.autosar_engineering_object
  | .code => Writer.code
  | .sw_addr_method => Writer.sw_addr_method
  | .package => Writer.package
  | .sw_base_type => Writer.sw_base_type
  | .sw_data_def_props_conditional => Writer.sw_data_def_props_conditional
  | .sw_bit_represenation => Writer.sw_bit_represenation
  | .sw_text_props => Writer.sw_text_props
  | .sw_pointer_target_props => Writer.sw_pointer_target_props
  | .symbol_props => Writer.symbol_props
  | .implementation_data_type_element => Writer.implementation_data_type_element
  | .implementation_data_type => Writer.implementation_data_type
  | .application_primitive_data_type => Writer.application_primitive_data_type
  | .application_array_element => Writer.application_array_element
  | .application_record_element => Writer.application_record_element
  | .application_array_data_type => Writer.application_array_data_type
  | .application_record_data_type => Writer.application_record_data_type
  | .data_type_map => Writer.data_type_map
  | .data_type_mapping_set => Writer.data_type_mapping_set
  | .value_list => Writer.value_list
  | .variable_data_prototype => Writer.variable_data_prototype
  | .parameter_data_prototype => Writer.parameter_data_prototype
  | .argument_data_prototype => Writer.argument_data_prototype
  | .mode_request_type_map => Writer.mode_request_type_map
  | .compu_method_ref => Writer.compu_method_ref
  | .data_constraint_ref => Writer.data_constraint_ref
  | .function_ptr_signature_ref => Writer.function_ptr_signature_ref
  | .impl_data_type_ref => Writer.impl_data_type_ref
  | .sw_base_type_ref => Writer.sw_base_type_ref
  | .sw_addr_method_ref => Writer.sw_addr_method_ref
  | .unit_ref => Writer.unit_ref
  | .physical_dimension_ref => Writer.physical_dimension_ref
  | .index_data_type_ref => Writer.index_data_type_ref
  | .application_data_type_ref => Writer.application_data_type_ref
  | .constant_ref => Writer.constant_ref
  | .autosar_data_type_ref => Writer.autosar_data_type_ref
  | .variable_data_prototype_ref => Writer.variable_data_prototype_ref
  | .parameter_data_prototype_ref => Writer.parameter_data_prototype_ref
  | .application_error_ref => Writer.application_error_ref
  | .mode_declaration_ref => Writer.mode_declaration_ref
  | .mode_declaration_group_ref => Writer.mode_declaration_group_ref
  | .mode_declaration_group_prototype_ref => Writer.mode_declaration_group_prototype_ref
  | .autosar_data_prototype_ref => Writer.autosar_data_prototype_ref
  | .e2e_profile_compatibility_props_ref => Writer.e2e_profile_compatibility_props_ref
  | .client_server_operation_ref => Writer.client_server_operation_ref
  | .port_prototype_ref => Writer.port_prototype_ref
  | .abstract_impl_data_type_element_ref => Writer.abstract_impl_data_type_element_ref
  | .appl_composite_element_data_proto_ref => Writer.appl_composite_element_data_proto_ref
  | .data_prototype_ref => Writer.data_prototype_ref
  | .port_interface_ref => Writer.port_interface_ref
  | .sw_component_type_ref => Writer.sw_component_type_ref
  | .sw_component_prototype_ref => Writer.sw_component_prototype_ref
  | .exclusive_area_ref => Writer.exclusive_area_ref
  | .exclusive_area_nesting_order_ref => Writer.exclusive_area_nesting_order_ref
  | .abstract_required_port_prototype_ref => Writer.abstract_required_port_prototype_ref
  | .abstract_provided_port_prototype_ref => Writer.abstract_provided_port_prototype_ref
  | .swc_internal_behavior_ref => Writer.swc_internal_behavior_ref
  | .runnable_entity_ref => Writer.runnable_entity_ref
  | .variable_access_ref => Writer.variable_access_ref
  | .mode_switch_point_ref => Writer.mode_switch_point_ref
  | .async_server_call_point_ref => Writer.async_server_call_point_ref
  | .async_server_call_result_point_ref => Writer.async_server_call_result_point_ref
  | .trigger_ref => Writer.trigger_ref
  | .internal_triggering_point_ref => Writer.internal_triggering_point_ref
  | .rte_event_ref => Writer.rte_event_ref
  | .data_type_mapping_set_ref => Writer.data_type_mapping_set_ref
  | .argument_data_prototype_ref => Writer.argument_data_prototype_ref
  | .application_array_element_ref => Writer.application_array_element_ref
  | .application_record_element_ref => Writer.application_record_element_ref
  | .text_value_specification => Writer.text_value_specification
  | .numerical_value_specification => Writer.numerical_value_specification
  | .array_value_specification => Writer.array_value_specification
  | .record_value_specification => Writer.record_value_specification
  | .application_value_specification => Writer.application_value_specification
  | .constant_specification => Writer.constant_specification
  | .constant_reference => Writer.constant_reference
  | .sw_values => Writer.sw_values
  | .value_group => Writer.value_group
  | .sw_axis_cont => Writer.sw_axis_cont
  | .sw_value_cont => Writer.sw_value_cont
  | .mode_declaration => Writer.mode_declaration
  | .mode_error_behavior => Writer.mode_error_behavior
  | .mode_transition => Writer.mode_transition
  | .mode_declaration_group => Writer.mode_declaration_group
  | .mode_declaration_group_prototype => Writer.mode_declaration_group_prototype
  | .nv_data_interface => Writer.nv_data_interface
  | .parameter_interface => Writer.parameter_interface
  | .sender_receiver_interface => Writer.sender_receiver_interface
  | .invalidation_policy => Writer.invalidation_policy
  | .application_error => Writer.application_error
  | .client_server_operation => Writer.client_server_operation
  | .client_server_interface => Writer.client_server_interface
  | .mode_switch_interface => Writer.mode_switch_interface
  | .e2e_transformation_com_spec_props => Writer.e2e_transformation_com_spec_props
  | .e2e_profile_compatibility_props => Writer.e2e_profile_compatibility_props
  | .mode_switched_ack_request => Writer.mode_switched_ack_request
  | .mode_switch_sender_com_spec => Writer.mode_switch_sender_com_spec
  | .transmission_acknowledgement_request => Writer.transmission_acknowledgement_request
  | .tranmsission_com_spec_props => Writer.tranmsission_com_spec_props
  | .queued_sender_com_spec => Writer.queued_sender_com_spec
  | .non_queued_sender_com_spec => Writer.non_queued_sender_com_spec
  | .nv_provide_com_spec => Writer.nv_provide_com_spec
  | .parameter_provide_com_spec => Writer.parameter_provide_com_spec
  | .server_com_spec => Writer.server_com_spec
  | .reception_com_spec_props => Writer.reception_com_spec_props
  | .queued_receiver_com_spec => Writer.queued_receiver_com_spec
  | .nonqueued_receiver_com_spec => Writer.nonqueued_receiver_com_spec
  | .nv_require_com_spec => Writer.nv_require_com_spec
  | .parameter_require_com_spec => Writer.parameter_require_com_spec
  | .mode_switch_receiver_com_spec => Writer.mode_switch_receiver_com_spec
  | .client_com_spec => Writer.client_com_spec
  | .provide_port_prototype => Writer.provide_port_prototype
  | .require_port_prototype => Writer.require_port_prototype
  | .pr_port_prototype => Writer.pr_port_prototype
  | .application_software_component_type => Writer.application_software_component_type
  | .sw_component_prototype => Writer.sw_component_prototype
  | .assembly_sw_connector => Writer.assembly_sw_connector
  | .passthrough_sw_connector => Writer.passthrough_sw_connector
  | .composition_sw_component_type => Writer.composition_sw_component_type
  | .swc_implementation => Writer.swc_implementation
  | .p_mode_group_in_atomic_swc_instance_ref => Writer.p_mode_group_in_atomic_swc_instance_ref
  | .p_operation_in_atomic_swc_instance_ref => Writer.p_operation_in_atomic_swc_instance_ref
  | .p_trigger_in_atomic_swc_instance_ref => Writer.p_trigger_in_atomic_swc_instance_ref
  | .r_mode_in_atomic_swc_instance_ref => Writer.r_mode_in_atomic_swc_instance_ref
  | .r_mode_group_in_atomic_swc_instance_ref => Writer.r_mode_group_in_atomic_swc_instance_ref
  | .r_operation_in_atomic_swc_instance_ref => Writer.r_operation_in_atomic_swc_instance_ref
  | .r_variable_in_atomic_swc_instance_ref => Writer.r_variable_in_atomic_swc_instance_ref
  | .r_trigger_in_atomic_swc_instance_ref => Writer.r_trigger_in_atomic_swc_instance_ref
  | .variable_in_impl_data_instance_ref => Writer.variable_in_impl_data_instance_ref
  | .variable_in_atomic_swc_type_instance_ref => Writer.variable_in_atomic_swc_type_instance_ref
  | .autosar_variable_ref => Writer.autosar_variable_ref
  | .variable_access => Writer.variable_access
  | .runnable_entity_argument => Writer.runnable_entity_argument
  | .executable_entity_activation_reason => Writer.executable_entity_activation_reason
  | .exclusive_area_ref_conditional => Writer.exclusive_area_ref_conditional
  | .async_server_call_point => Writer.async_server_call_point
  | .sync_server_call_point => Writer.sync_server_call_point
  | .async_server_call_result_point => Writer.async_server_call_result_point
  | .external_triggering_point_ident => Writer.external_triggering_point_ident
  | .external_triggering_point => Writer.external_triggering_point
  | .internal_triggering_point => Writer.internal_triggering_point
  | .mode_access_point_ident => Writer.mode_access_point_ident
  | .mode_access_point => Writer.mode_access_point
  | .mode_switch_point => Writer.mode_switch_point
  | .parameter_in_atomic_swc_type_instance_ref => Writer.parameter_in_atomic_swc_type_instance_ref
  | .autosar_parameter_ref => Writer.autosar_parameter_ref
  | .parameter_access => Writer.parameter_access
  | .wait_point => Writer.wait_point
  | .runnable_entity => Writer.runnable_entity
  | .async_server_call_returns_event => Writer.async_server_call_returns_event
  | .background_event => Writer.background_event
  | .data_receive_error_event => Writer.data_receive_error_event
  | .data_received_event => Writer.data_received_event
  | .data_send_completed_event => Writer.data_send_completed_event
  | .data_write_completed_event => Writer.data_write_completed_event
  | .external_trigger_occured_event => Writer.external_trigger_occured_event
  | .init_event => Writer.init_event
  | .internal_trigger_occured_event => Writer.internal_trigger_occured_event
  | .mode_switched_ack_event => Writer.mode_switched_ack_event
  | .operation_invoked_event => Writer.operation_invoked_event
  | .swc_mode_manager_error_event => Writer.swc_mode_manager_error_event
  | .swc_mode_switch_event => Writer.swc_mode_switch_event
  | .timing_event => Writer.timing_event
  | .transformer_hard_error_event => Writer.transformer_hard_error_event
  | .port_defined_argument_value => Writer.port_defined_argument_value
  | .communication_buffer_locking => Writer.communication_buffer_locking
  | .port_api_option => Writer.port_api_option
  | .exclusive_area => Writer.exclusive_area
  | .swc_internal_behavior => Writer.swc_internal_behavior
  | .«break» => Writer.«break»
  | .documentation_block => Writer.documentation_block
  | .emphasis_text => Writer.emphasis_text
  | .index_entry => Writer.index_entry
  | .technical_term => Writer.technical_term
  | .superscript => Writer.superscript
  | .subscript => Writer.subscript
  | .language_long_name => Writer.language_long_name
  | .language_overview_paragraph => Writer.language_overview_paragraph
  | .language_paragraph => Writer.language_paragraph
  | .language_verbatim => Writer.language_verbatim
  | .single_language_unit_names => Writer.single_language_unit_names
  | .multi_language_overview_paragraph => Writer.multi_language_overview_paragraph tag
  | .compu_const => Writer.compu_const
  | .scale_constraint => Writer.scale_constraint
  | .sw_data_def_props => Writer.sw_data_def_props
  | .not_available_value_specification => Writer.not_available_value_specification
  | .port_in_composition_type_instance_ref => Writer.port_in_composition_type_instance_ref tag
  | .delegation_sw_connector => Writer.delegation_sw_connector

/-- Reader methods by name; `tag` is the tag of the element read. -/
def rm (m : RM) (tag : String) : RMethod Cls RM :=
  match m with
  | .compu_method => Reader.compu_method
  | .computation => Reader.computation
  | .compu_rational => Reader.compu_rational
  | .data_constraint => Reader.data_constraint
  | .data_constraint_rule => Reader.data_constraint_rule
  | .internal_constraint => Reader.internal_constraint
  | .physical_constraint => Reader.physical_constraint
  | .scale_constraint => Reader.scale_constraint
  | .unit => Reader.unit
  | .data_filter => Reader.data_filter
  | .autosar_engineering_object => Reader.autosar_engineering_object
  | .code => Reader.code
  | .sw_addr_method => Reader.sw_addr_method
  | .package => Reader.package
  | .sw_base_type => Reader.sw_base_type
  | .sw_bit_representation => Reader.sw_bit_representation
  | .sw_data_def_props => Reader.sw_data_def_props
  | .sw_data_def_props_conditional => Reader.sw_data_def_props_conditional
  | .sw_text_props => Reader.sw_text_props
  | .sw_pointer_target_props => Reader.sw_pointer_target_props
  | .symbol_props => Reader.symbol_props
  | .implementation_data_type_element => Reader.implementation_data_type_element
  | .implementation_data_type => Reader.implementation_data_type
  | .application_primitive_data_type => Reader.application_primitive_data_type
  | .application_array_element => Reader.application_array_element
  | .application_record_element => Reader.application_record_element
  | .application_array_data_type => Reader.application_array_data_type
  | .application_record_data_type => Reader.application_record_data_type
  | .data_type_map => Reader.data_type_map
  | .data_type_mapping_set => Reader.data_type_mapping_set
  | .parameter_data_prototype => Reader.parameter_data_prototype
  | .variable_data_prototype => Reader.variable_data_prototype
  | .argument_data_prototype => Reader.argument_data_prototype
  | .mode_request_type_map => Reader.mode_request_type_map
  | .compu_method_ref => Reader.compu_method_ref
  | .data_constraint_ref => Reader.data_constraint_ref
  | .function_ptr_signature_ref => Reader.function_ptr_signature_ref
  | .impl_data_type_ref => Reader.impl_data_type_ref
  | .sw_base_type_ref => Reader.sw_base_type_ref
  | .sw_addr_method_ref => Reader.sw_addr_method_ref
  | .unit_ref => Reader.unit_ref
  | .physical_dimension_ref => Reader.physical_dimension_ref
  | .index_data_type_ref => Reader.index_data_type_ref
  | .application_data_type_ref => Reader.application_data_type_ref
  | .autosar_data_type_ref => Reader.autosar_data_type_ref
  | .constant_ref => Reader.constant_ref
  | .variable_data_prototype_ref => Reader.variable_data_prototype_ref
  | .parameter_data_prototype_ref => Reader.parameter_data_prototype_ref
  | .application_error_ref => Reader.application_error_ref
  | .mode_declaration_ref => Reader.mode_declaration_ref
  | .mode_declaration_group_ref => Reader.mode_declaration_group_ref
  | .mode_declaration_group_prototype_ref => Reader.mode_declaration_group_prototype_ref
  | .autosar_data_prototype_ref => Reader.autosar_data_prototype_ref
  | .e2e_profile_compatibility_props_ref => Reader.e2e_profile_compatibility_props_ref
  | .client_server_operation_ref => Reader.client_server_operation_ref
  | .port_prototype_ref => Reader.port_prototype_ref
  | .abstract_impl_data_type_element_ref => Reader.abstract_impl_data_type_element_ref
  | .appl_composite_element_data_proto_ref => Reader.appl_composite_element_data_proto_ref
  | .data_prototype_ref => Reader.data_prototype_ref
  | .port_interface_ref => Reader.port_interface_ref
  | .sw_component_type_ref => Reader.sw_component_type_ref
  | .sw_component_prototype_ref => Reader.sw_component_prototype_ref
  | .swc_internal_behavior_ref => Reader.swc_internal_behavior_ref
  | .exclusive_area_ref => Reader.exclusive_area_ref
  | .exclusive_area_nesting_order_ref => Reader.exclusive_area_nesting_order_ref
  | .abstract_required_port_prototype_ref => Reader.abstract_required_port_prototype_ref
  | .abstract_provided_port_prototype_ref => Reader.abstract_provided_port_prototype_ref
  | .runnable_entity_ref => Reader.runnable_entity_ref
  | .variable_access_ref => Reader.variable_access_ref
  | .mode_switch_point_ref => Reader.mode_switch_point_ref
  | .async_server_call_point_ref => Reader.async_server_call_point_ref
  | .async_server_call_result_point_ref => Reader.async_server_call_result_point_ref
  | .trigger_ref => Reader.trigger_ref
  | .internal_triggering_point_ref => Reader.internal_triggering_point_ref
  | .rte_event_ref => Reader.rte_event_ref
  | .data_type_mapping_set_ref => Reader.data_type_mapping_set_ref
  | .argument_data_prototype_ref => Reader.argument_data_prototype_ref
  | .application_array_element_ref => Reader.application_array_element_ref
  | .application_record_element_ref => Reader.application_record_element_ref
  | .text_value_specification => Reader.text_value_specification
  | .numerical_value_specification => Reader.numerical_value_specification
  | .not_available_value_specification => Reader.not_available_value_specification
  | .array_value_specification => Reader.array_value_specification
  | .record_value_specification => Reader.record_value_specification
  | .application_value_specification => Reader.application_value_specification
  | .constant_specification => Reader.constant_specification
  | .constant_reference => Reader.constant_reference
  | .sw_axis_cont => Reader.sw_axis_cont
  | .sw_value_cont => Reader.sw_value_cont
  | .mode_declaration => Reader.mode_declaration
  | .mode_error_behavior => Reader.mode_error_behavior
  | .mode_transition => Reader.mode_transition
  | .mode_declaration_group => Reader.mode_declaration_group
  | .mode_declaration_group_prototype => Reader.mode_declaration_group_prototype
  | .nv_data_interface => Reader.nv_data_interface
  | .parameter_interface => Reader.parameter_interface
  | .sender_receiver_interface => Reader.sender_receiver_interface
  | .invalidation_policy => Reader.invalidation_policy
  | .application_error => Reader.application_error
  | .client_server_operation => Reader.client_server_operation
  | .client_server_interface => Reader.client_server_interface
  | .mode_switch_interface => Reader.mode_switch_interface
  | .e2e_transformation_com_spec_props => Reader.e2e_transformation_com_spec_props
  | .e2e_profile_compatibility_props => Reader.e2e_profile_compatibility_props
  | .mode_switched_ack_request => Reader.mode_switched_ack_request
  | .mode_switch_sender_com_spec => Reader.mode_switch_sender_com_spec
  | .transmission_acknowledgement_request => Reader.transmission_acknowledgement_request
  | .tranmsission_com_spec_props => Reader.tranmsission_com_spec_props
  | .queued_sender_com_spec => Reader.queued_sender_com_spec
  | .nonqueued_sender_com_spec => Reader.nonqueued_sender_com_spec
  | .nv_provider_com_spec => Reader.nv_provider_com_spec
  | .parameter_provide_com_spec => Reader.parameter_provide_com_spec
  | .server_com_spec => Reader.server_com_spec
  | .reception_com_spec_props => Reader.reception_com_spec_props
  | .queued_receiver_com_spec => Reader.queued_receiver_com_spec
  | .nonqueued_receiver_com_spec => Reader.nonqueued_receiver_com_spec
  | .nv_require_com_spec => Reader.nv_require_com_spec
  | .parameter_require_com_spec => Reader.parameter_require_com_spec
  | .mode_switch_receiver_com_spec => Reader.mode_switch_receiver_com_spec
  | .client_com_spec => Reader.client_com_spec
  | .provide_port_prototype => Reader.provide_port_prototype
  | .require_port_prototype => Reader.require_port_prototype
  | .pr_port_prototype => Reader.pr_port_prototype
  | .application_sw_component_type => Reader.application_sw_component_type
  | .sw_component_prototype => Reader.sw_component_prototype
  | .assembly_sw_connector => Reader.assembly_sw_connector
  | .pass_through_sw_connector => Reader.pass_through_sw_connector
  | .composition_sw_component_type => Reader.composition_sw_component_type
  | .swc_implementation => Reader.swc_implementation
  | .p_mode_group_in_atomic_swc_instance_ref => Reader.p_mode_group_in_atomic_swc_instance_ref
  | .p_operation_in_atomic_swc_instance_ref => Reader.p_operation_in_atomic_swc_instance_ref
  | .p_trigger_in_atomic_swc_instance_ref => Reader.p_trigger_in_atomic_swc_instance_ref
  | .r_mode_in_atomic_swc_instance_ref => Reader.r_mode_in_atomic_swc_instance_ref
  | .r_mode_group_in_atomic_swc_instance_ref => Reader.r_mode_group_in_atomic_swc_instance_ref
  | .r_operation_in_atomic_swc_instance_ref => Reader.r_operation_in_atomic_swc_instance_ref
  | .r_variable_in_atomic_swc_instance_ref => Reader.r_variable_in_atomic_swc_instance_ref
  | .r_trigger_in_atomic_swc_instance_ref => Reader.r_trigger_in_atomic_swc_instance_ref
  | .variable_in_impl_data_instance_ref => Reader.variable_in_impl_data_instance_ref
  | .variable_access => Reader.variable_access
  | .autosar_variable_ref => Reader.autosar_variable_ref
  | .executable_entity_activation_reason => Reader.executable_entity_activation_reason
  | .exclusive_area_ref_conditional => Reader.exclusive_area_ref_conditional
  | .runnable_entity_argument => Reader.runnable_entity_argument
  | .async_server_call_point => Reader.async_server_call_point
  | .sync_server_call_point => Reader.sync_server_call_point
  | .async_server_call_result_point => Reader.async_server_call_result_point
  | .external_triggering_point_ident => Reader.external_triggering_point_ident
  | .external_triggering_point => Reader.external_triggering_point
  | .internal_triggering_point => Reader.internal_triggering_point
  | .mode_access_point_ident => Reader.mode_access_point_ident
  | .mode_switch_point => Reader.mode_switch_point
  | .autosar_parameter_ref => Reader.autosar_parameter_ref
  | .parameter_access => Reader.parameter_access
  | .wait_point => Reader.wait_point
  | .runnable_entity => Reader.runnable_entity
  | .async_server_call_returns_event => Reader.async_server_call_returns_event
  | .background_event => Reader.background_event
  | .data_receive_error_event => Reader.data_receive_error_event
  | .data_received_event => Reader.data_received_event
  | .data_send_completed_event => Reader.data_send_completed_event
  | .data_write_completed_event => Reader.data_write_completed_event
  | .external_trigger_occured_event => Reader.external_trigger_occured_event
  | .init_event => Reader.init_event
  | .internal_trigger_occured_event => Reader.internal_trigger_occured_event
  | .mode_switched_ack_event => Reader.mode_switched_ack_event
  | .operation_invoked_event => Reader.operation_invoked_event
  | .swc_mode_manager_error_event => Reader.swc_mode_manager_error_event
  | .swc_mode_switch_event => Reader.swc_mode_switch_event
  | .timing_event => Reader.timing_event
  | .transformer_hard_error_event => Reader.transformer_hard_error_event
  | .port_defined_argument_value => Reader.port_defined_argument_value
  | .communication_buffer_locking => Reader.communication_buffer_locking
  | .port_api_option => Reader.port_api_option
  | .exclusive_area => Reader.exclusive_area
  | .swc_internal_behavior => Reader.swc_internal_behavior
  | .annotation => Reader.annotation
  | .«break» => Reader.«break»
  | .documentation_block => Reader.documentation_block
  | .emphasis_text => Reader.emphasis_text
  | .index_entry => Reader.index_entry
  | .technical_term => Reader.technical_term
  | .superscript => Reader.superscript
  | .subscript => Reader.subscript
  | .multi_language_long_name => Reader.multi_language_long_name tag
  | .language_long_name => Reader.language_long_name
  | .language_overview_paragraph => Reader.language_overview_paragraph
  | .language_paragraph => Reader.language_paragraph
  | .language_verbatim => Reader.language_verbatim
  | .multi_language_overview_paragraph => Reader.multi_language_overview_paragraph tag
  | .multi_language_paragraph => Reader.multi_language_paragraph
  | .multi_language_verbatim => Reader.multi_language_verbatim
  | .single_language_unit_names => Reader.single_language_unit_names
  | .compu_scale => Reader.compu_scale
  | .compu_const => Reader.compu_const
  | .value_list => Reader.value_list
  | .sw_values => Reader.sw_values
  | .value_group => Reader.value_group
  | .port_in_composition_type_instance_ref => Reader.port_in_composition_type_instance_ref tag
  | .delegation_sw_connector => Reader.delegation_sw_connector
  | .variable_in_atomic_swc_type_instance_ref => Reader.variable_in_atomic_swc_type_instance_ref
  | .mode_access_point => Reader.mode_access_point
  | .parameter_in_atomic_swc_type_instance_ref => Reader.parameter_in_atomic_swc_type_instance_ref

/-- The attributes that are lost when an object of the class is written and read back: the UUID
where the writer does not write it (the methods that do call `_collect_identifiable_attributes`,
writer.py 464-469), the validity of scale constraints (reader.py 1426-1450). -/
def lossy : Cls → List String
  | .ApplicationArrayDataType | .ApplicationRecordDataType | .ApplicationPrimitiveDataType
  | .ImplementationDataType | .E2EProfileCompatibilityProps | .ApplicationSoftwareComponentType
  | .CompositionSwComponentType | .SwcImplementation | .AsynchronousServerCallReturnsEvent
  | .BackgroundEvent | .DataReceiveErrorEvent | .DataReceivedEvent | .DataSendCompletedEvent
  | .DataWriteCompletedEvent | .ExternalTriggerOccurredEvent | .InitEvent
  | .InternalTriggerOccurredEvent | .ModeSwitchedAckEvent | .OperationInvokedEvent
  | .SwcModeManagerErrorEvent | .SwcModeSwitchEvent | .TimingEvent | .TransformerHardErrorEvent
  | .ImplementationDataTypeElement | .ApplicationRecordElement | .ApplicationError
  | .ClientServerOperation | .ModeDeclaration | .ModeTransition | .ProvidePortPrototype
  | .RequirePortPrototype | .PRPortPrototype | .SwComponentPrototype | .AssemblySwConnector
  | .DelegationSwConnector | .PassThroughSwConnector | .VariableAccess | .SwcInternalBehavior
  | .RunnableEntity | .AsynchronousServerCallPoint | .SynchronousServerCallPoint
  | .AsynchronousServerCallResultPoint | .InternalTriggeringPoint | .ModeSwitchPoint
  | .ParameterAccess | .WaitPoint | .ApplicationArrayElement | .ExclusiveArea
  | .ExternalTriggeringPointIdent | .ModeAccessPointIdent | .NvDataInterface | .ParameterInterface
  | .SenderReceiverInterface | .ClientServerInterface | .ModeSwitchInterface => ["uuid"]
  | .ScaleConstraint => ["validity"]
  | _ => []

/-- What is covered of an attribute: only the first annotation (`_write_annotations`,
writer.py 573-584, writes one ANNOTATIONS element per annotation and the reader looks at the first
one), only technical terms in mixed content (the reader refuses other inline elements, reader.py
847-1021); the inner port of a delegation connector is only written if it has a port reference
(element.py 5295-5305). -/
def narrow (c : Cls) (f : Field Cls) : Field Cls :=
  match c, f.attr with
  | .SwDataDefPropsConditional, "annotations" => { f with shape := .first }
  | .LanguageLongName, "parts" | .LanguageOverviewParagraph, "parts" | .LanguageParagraph, "parts"
  | .LanguageVerbatim, "parts" => { f with alts := [.str, .cls .TechnicalTerm] }
  | .InnerProvidedPortInstanceRef, "port_ref" | .InnerRequiredPortInstanceRef, "port_ref" =>
    { f with req := true }
  | .CompuRational, "numerator" => { f with req := true }
  | _, _ => f

/-- The attributes covered by the round trip theorems: all but the service kind of port interfaces,
which cannot be written (there is no text for it, enumeration.py 599-627). -/
def covered (c : Cls) : List (Field Cls) :=
  ((Schema.ctor c).filter fun f => f.attr ≠ "service_kind").map (narrow c)

/-- All tables. -/
def tables : Tables Cls WM RM := ⟨wm, rm, Schema.ctor, covered, lossy, mro⟩

/-- Which class is written by which method (with which tag) and read back by which method. -/
def pairs : List (Pair Cls WM RM) :=
  [⟨.CompuMethod, .compu_method, none, .compu_method⟩,
   ⟨.DataFilter, .data_filter, (some "DATA-FILTER"), .data_filter⟩,
   ⟨.AutosarEngineeringObject, .autosar_engineering_object, (some "AUTOSAR-ENGINEERING-OBJECT"), .autosar_engineering_object⟩,
   ⟨.Code, .code, none, .code⟩,
   ⟨.ApplicationArrayDataType, .application_array_data_type, none, .application_array_data_type⟩,
   ⟨.ApplicationRecordDataType, .application_record_data_type, none, .application_record_data_type⟩,
   ⟨.ApplicationPrimitiveDataType, .application_primitive_data_type, none, .application_primitive_data_type⟩,
   ⟨.SwBaseType, .sw_base_type, none, .sw_base_type⟩,
   ⟨.SwAddrMethod, .sw_addr_method, none, .sw_addr_method⟩,
   ⟨.Package, .package, none, .package⟩,
   ⟨.ImplementationDataType, .implementation_data_type, none, .implementation_data_type⟩,
   ⟨.DataTypeMappingSet, .data_type_mapping_set, none, .data_type_mapping_set⟩,
   ⟨.DataConstraint, .data_constraint, none, .data_constraint⟩,
   ⟨.Unit, .unit, none, .unit⟩,
   ⟨.ConstantSpecification, .constant_specification, none, .constant_specification⟩,
   ⟨.NvDataInterface, .nv_data_interface, none, .nv_data_interface⟩,
   ⟨.ParameterInterface, .parameter_interface, none, .parameter_interface⟩,
   ⟨.SenderReceiverInterface, .sender_receiver_interface, none, .sender_receiver_interface⟩,
   ⟨.ClientServerInterface, .client_server_interface, none, .client_server_interface⟩,
   ⟨.ModeSwitchInterface, .mode_switch_interface, none, .mode_switch_interface⟩,
   ⟨.ModeDeclarationGroup, .mode_declaration_group, none, .mode_declaration_group⟩,
   ⟨.E2EProfileCompatibilityProps, .e2e_profile_compatibility_props, none, .e2e_profile_compatibility_props⟩,
   ⟨.ApplicationSoftwareComponentType, .application_software_component_type, none, .application_sw_component_type⟩,
   ⟨.CompositionSwComponentType, .composition_sw_component_type, none, .composition_sw_component_type⟩,
   ⟨.SwcImplementation, .swc_implementation, none, .swc_implementation⟩,
   ⟨.TextValueSpecification, .text_value_specification, none, .text_value_specification⟩,
   ⟨.NumericalValueSpecification, .numerical_value_specification, none, .numerical_value_specification⟩,
   ⟨.NotAvailableValueSpecification, .not_available_value_specification, none, .not_available_value_specification⟩,
   ⟨.ArrayValueSpecification, .array_value_specification, none, .array_value_specification⟩,
   ⟨.RecordValueSpecification, .record_value_specification, none, .record_value_specification⟩,
   ⟨.ApplicationValueSpecification, .application_value_specification, none, .application_value_specification⟩,
   ⟨.ConstantReference, .constant_reference, none, .constant_reference⟩,
   ⟨.ModeSwitchSenderComSpec, .mode_switch_sender_com_spec, none, .mode_switch_sender_com_spec⟩,
   ⟨.QueuedSenderComSpec, .queued_sender_com_spec, none, .queued_sender_com_spec⟩,
   ⟨.NonqueuedSenderComSpec, .non_queued_sender_com_spec, none, .nonqueued_sender_com_spec⟩,
   ⟨.NvProvideComSpec, .nv_provide_com_spec, none, .nv_provider_com_spec⟩,
   ⟨.ParameterProvideComSpec, .parameter_provide_com_spec, none, .parameter_provide_com_spec⟩,
   ⟨.ServerComSpec, .server_com_spec, none, .server_com_spec⟩,
   ⟨.QueuedReceiverComSpec, .queued_receiver_com_spec, none, .queued_receiver_com_spec⟩,
   ⟨.NonqueuedReceiverComSpec, .nonqueued_receiver_com_spec, none, .nonqueued_receiver_com_spec⟩,
   ⟨.NvRequireComSpec, .nv_require_com_spec, none, .nv_require_com_spec⟩,
   ⟨.ParameterRequireComSpec, .parameter_require_com_spec, none, .parameter_require_com_spec⟩,
   ⟨.ModeSwitchReceiverComSpec, .mode_switch_receiver_com_spec, none, .mode_switch_receiver_com_spec⟩,
   ⟨.ClientComSpec, .client_com_spec, none, .client_com_spec⟩,
   ⟨.AsynchronousServerCallReturnsEvent, .async_server_call_returns_event, none, .async_server_call_returns_event⟩,
   ⟨.BackgroundEvent, .background_event, none, .background_event⟩,
   ⟨.DataReceiveErrorEvent, .data_receive_error_event, none, .data_receive_error_event⟩,
   ⟨.DataReceivedEvent, .data_received_event, none, .data_received_event⟩,
   ⟨.DataSendCompletedEvent, .data_send_completed_event, none, .data_send_completed_event⟩,
   ⟨.DataWriteCompletedEvent, .data_write_completed_event, none, .data_write_completed_event⟩,
   ⟨.ExternalTriggerOccurredEvent, .external_trigger_occured_event, none, .external_trigger_occured_event⟩,
   ⟨.InitEvent, .init_event, none, .init_event⟩,
   ⟨.InternalTriggerOccurredEvent, .internal_trigger_occured_event, none, .internal_trigger_occured_event⟩,
   ⟨.ModeSwitchedAckEvent, .mode_switched_ack_event, none, .mode_switched_ack_event⟩,
   ⟨.OperationInvokedEvent, .operation_invoked_event, none, .operation_invoked_event⟩,
   ⟨.SwcModeManagerErrorEvent, .swc_mode_manager_error_event, none, .swc_mode_manager_error_event⟩,
   ⟨.SwcModeSwitchEvent, .swc_mode_switch_event, none, .swc_mode_switch_event⟩,
   ⟨.TimingEvent, .timing_event, none, .timing_event⟩,
   ⟨.TransformerHardErrorEvent, .transformer_hard_error_event, none, .transformer_hard_error_event⟩,
   ⟨.Annotation, .annotation, none, .annotation⟩,
   ⟨.Break, .«break», none, .«break»⟩,
   ⟨.DocumentationBlock, .documentation_block, (some "ANNOTATION-TEXT"), .documentation_block⟩,
   ⟨.EmphasisText, .emphasis_text, none, .emphasis_text⟩,
   ⟨.IndexEntry, .index_entry, none, .index_entry⟩,
   ⟨.MultilanguageLongName, .multi_language_long_name, (some "LABEL"), .multi_language_long_name⟩,
   ⟨.MultilanguageLongName, .multi_language_long_name, (some "LONG-NAME"), .multi_language_long_name⟩,
   ⟨.MultiLanguageOverviewParagraph, .multi_language_overview_paragraph, (some "DESC"), .multi_language_overview_paragraph⟩,
   ⟨.MultiLanguageParagraph, .multi_language_paragraph, none, .multi_language_paragraph⟩,
   ⟨.MultiLanguageVerbatim, .multi_language_verbatim, none, .multi_language_verbatim⟩,
   ⟨.LanguageLongName, .language_long_name, none, .language_long_name⟩,
   ⟨.LanguageParagraph, .language_paragraph, none, .language_paragraph⟩,
   ⟨.LanguageVerbatim, .language_verbatim, none, .language_verbatim⟩,
   ⟨.SingleLanguageUnitNames, .single_language_unit_names, (some "DISPLAY-NAME"), .single_language_unit_names⟩,
   ⟨.Superscript, .superscript, none, .superscript⟩,
   ⟨.Subscript, .subscript, none, .subscript⟩,
   ⟨.TechnicalTerm, .technical_term, none, .technical_term⟩,
   ⟨.Computation, .computation, (some "COMPU-INTERNAL-TO-PHYS"), .computation⟩,
   ⟨.CompuRational, .compu_rational, none, .compu_rational⟩,
   ⟨.CompuScale, .compu_scale, none, .compu_scale⟩,
   ⟨.ScaleConstraint, .scale_constraint, none, .scale_constraint⟩,
   ⟨.InternalConstraint, .internal_constraint, none, .internal_constraint⟩,
   ⟨.PhysicalConstraint, .physical_constraint, none, .physical_constraint⟩,
   ⟨.DataConstraintRule, .data_constraint_rule, none, .data_constraint_rule⟩,
   ⟨.SwDataDefPropsConditional, .sw_data_def_props_conditional, none, .sw_data_def_props_conditional⟩,
   ⟨.SwBitRepresentation, .sw_bit_represenation, none, .sw_bit_representation⟩,
   ⟨.SwTextProps, .sw_text_props, none, .sw_text_props⟩,
   ⟨.SwPointerTargetProps, .sw_pointer_target_props, none, .sw_pointer_target_props⟩,
   ⟨.SymbolProps, .symbol_props, (some "SYMBOL-PROPS"), .symbol_props⟩,
   ⟨.ImplementationDataTypeElement, .implementation_data_type_element, none, .implementation_data_type_element⟩,
   ⟨.ApplicationRecordElement, .application_record_element, none, .application_record_element⟩,
   ⟨.DataTypeMap, .data_type_map, none, .data_type_map⟩,
   ⟨.ValueList, .value_list, none, .value_list⟩,
   ⟨.ArgumentDataPrototype, .argument_data_prototype, none, .argument_data_prototype⟩,
   ⟨.ModeRequestTypeMap, .mode_request_type_map, none, .mode_request_type_map⟩,
   ⟨.SwValues, .sw_values, none, .sw_values⟩,
   ⟨.SwAxisCont, .sw_axis_cont, none, .sw_axis_cont⟩,
   ⟨.SwValueCont, .sw_value_cont, none, .sw_value_cont⟩,
   ⟨.InvalidationPolicy, .invalidation_policy, none, .invalidation_policy⟩,
   ⟨.ApplicationError, .application_error, none, .application_error⟩,
   ⟨.ClientServerOperation, .client_server_operation, none, .client_server_operation⟩,
   ⟨.ModeDeclaration, .mode_declaration, none, .mode_declaration⟩,
   ⟨.ModeErrorBehavior, .mode_error_behavior, (some "MODE-MANAGER-ERROR-BEHAVIOR"), .mode_error_behavior⟩,
   ⟨.ModeErrorBehavior, .mode_error_behavior, (some "MODE-USER-ERROR-BEHAVIOR"), .mode_error_behavior⟩,
   ⟨.ModeTransition, .mode_transition, none, .mode_transition⟩,
   ⟨.ModeDeclarationGroupPrototype, .mode_declaration_group_prototype, (some "MODE-DECLARATION-GROUP-PROTOTYPE"), .mode_declaration_group_prototype⟩,
   ⟨.EndToEndTransformationComSpecProps, .e2e_transformation_com_spec_props, none, .e2e_transformation_com_spec_props⟩,
   ⟨.ModeSwitchedAckRequest, .mode_switched_ack_request, none, .mode_switched_ack_request⟩,
   ⟨.TransmissionAcknowledgementRequest, .transmission_acknowledgement_request, none, .transmission_acknowledgement_request⟩,
   ⟨.TransmissionComSpecProps, .tranmsission_com_spec_props, none, .tranmsission_com_spec_props⟩,
   ⟨.ReceptionComSpecProps, .reception_com_spec_props, none, .reception_com_spec_props⟩,
   ⟨.ProvidePortPrototype, .provide_port_prototype, none, .provide_port_prototype⟩,
   ⟨.RequirePortPrototype, .require_port_prototype, none, .require_port_prototype⟩,
   ⟨.PRPortPrototype, .pr_port_prototype, none, .pr_port_prototype⟩,
   ⟨.SwComponentPrototype, .sw_component_prototype, none, .sw_component_prototype⟩,
   ⟨.AssemblySwConnector, .assembly_sw_connector, none, .assembly_sw_connector⟩,
   ⟨.DelegationSwConnector, .delegation_sw_connector, none, .delegation_sw_connector⟩,
   ⟨.PassThroughSwConnector, .passthrough_sw_connector, none, .pass_through_sw_connector⟩,
   ⟨.RModeInAtomicSwcInstanceRef, .r_mode_in_atomic_swc_instance_ref, (some "DISABLED-MODE-IREF"), .r_mode_in_atomic_swc_instance_ref⟩,
   ⟨.RModeGroupInAtomicSwcInstanceRef, .r_mode_group_in_atomic_swc_instance_ref, none, .r_mode_group_in_atomic_swc_instance_ref⟩,
   ⟨.ArVariableInImplementationDataInstanceRef, .variable_in_impl_data_instance_ref, (some "AUTOSAR-VARIABLE-IN-IMPL-DATATYPE"), .variable_in_impl_data_instance_ref⟩,
   ⟨.VariableInAtomicSWCTypeInstanceRef, .variable_in_atomic_swc_type_instance_ref, none, .variable_in_atomic_swc_type_instance_ref⟩,
   ⟨.AutosarVariableRef, .autosar_variable_ref, (some "ACCESSED-VARIABLE"), .autosar_variable_ref⟩,
   ⟨.VariableAccess, .variable_access, (some "VARIABLE-ACCESS"), .variable_access⟩,
   ⟨.SwcInternalBehavior, .swc_internal_behavior, none, .swc_internal_behavior⟩,
   ⟨.ExecutableEntityActivationReason, .executable_entity_activation_reason, none, .executable_entity_activation_reason⟩,
   ⟨.ExclusiveAreaRefConditional, .exclusive_area_ref_conditional, none, .exclusive_area_ref_conditional⟩,
   ⟨.RunnableEntityArgument, .runnable_entity_argument, none, .runnable_entity_argument⟩,
   ⟨.RunnableEntity, .runnable_entity, none, .runnable_entity⟩,
   ⟨.PortDefinedArgumentValue, .port_defined_argument_value, none, .port_defined_argument_value⟩,
   ⟨.CommunicationBufferLocking, .communication_buffer_locking, none, .communication_buffer_locking⟩,
   ⟨.PortApiOption, .port_api_option, none, .port_api_option⟩,
   ⟨.AsynchronousServerCallPoint, .async_server_call_point, none, .async_server_call_point⟩,
   ⟨.SynchronousServerCallPoint, .sync_server_call_point, none, .sync_server_call_point⟩,
   ⟨.AsynchronousServerCallResultPoint, .async_server_call_result_point, none, .async_server_call_result_point⟩,
   ⟨.ExternalTriggeringPoint, .external_triggering_point, none, .external_triggering_point⟩,
   ⟨.InternalTriggeringPoint, .internal_triggering_point, none, .internal_triggering_point⟩,
   ⟨.ModeAccessPoint, .mode_access_point, none, .mode_access_point⟩,
   ⟨.ModeSwitchPoint, .mode_switch_point, none, .mode_switch_point⟩,
   ⟨.ParameterInAtomicSwcTypeInstanceRef, .parameter_in_atomic_swc_type_instance_ref, none, .parameter_in_atomic_swc_type_instance_ref⟩,
   ⟨.AutosarParameterRef, .autosar_parameter_ref, (some "ACCESSED-PARAMETER"), .autosar_parameter_ref⟩,
   ⟨.ParameterAccess, .parameter_access, none, .parameter_access⟩,
   ⟨.WaitPoint, .wait_point, none, .wait_point⟩,
   ⟨.Computation, .computation, (some "COMPU-PHYS-TO-INTERNAL"), .computation⟩,
   ⟨.SwDataDefProps, .sw_data_def_props, (some "SW-DATA-DEF-PROPS"), .sw_data_def_props⟩,
   ⟨.ApplicationArrayElement, .application_array_element, none, .application_array_element⟩,
   ⟨.VariableDataPrototype, .variable_data_prototype, (some "VARIABLE-DATA-PROTOTYPE"), .variable_data_prototype⟩,
   ⟨.ParameterDataPrototype, .parameter_data_prototype, (some "PARAMETER-DATA-PROTOTYPE"), .parameter_data_prototype⟩,
   ⟨.ModeDeclarationGroupPrototype, .mode_declaration_group_prototype, (some "MODE-GROUP"), .mode_declaration_group_prototype⟩,
   ⟨.SwDataDefProps, .sw_data_def_props, (some "NETWORK-REPRESENTATION"), .sw_data_def_props⟩,
   ⟨.VariableAccess, .variable_access, (some "REPLACE-WITH"), .variable_access⟩,
   ⟨.DataFilter, .data_filter, (some "FILTER"), .data_filter⟩,
   ⟨.RVariableInAtomicSwcInstanceRef, .r_variable_in_atomic_swc_instance_ref, none, .r_variable_in_atomic_swc_instance_ref⟩,
   ⟨.RTriggerInAtomicSwcInstanceRef, .r_trigger_in_atomic_swc_instance_ref, (some "TRIGGER-IREF"), .r_trigger_in_atomic_swc_instance_ref⟩,
   ⟨.POperationInAtomicSwcInstanceRef, .p_operation_in_atomic_swc_instance_ref, none, .p_operation_in_atomic_swc_instance_ref⟩,
   ⟨.PModeGroupInAtomicSwcInstanceRef, .p_mode_group_in_atomic_swc_instance_ref, (some "MODE-GROUP-IREF"), .p_mode_group_in_atomic_swc_instance_ref⟩,
   ⟨.RModeInAtomicSwcInstanceRef, .r_mode_in_atomic_swc_instance_ref, (some "MODE-IREF"), .r_mode_in_atomic_swc_instance_ref⟩,
   ⟨.RTriggerInAtomicSwcInstanceRef, .r_trigger_in_atomic_swc_instance_ref, (some "REQUIRED-TRIGGER-IREF"), .r_trigger_in_atomic_swc_instance_ref⟩,
   ⟨.PTriggerInAtomicSwcTypeInstanceRef, .p_trigger_in_atomic_swc_instance_ref, (some "TRIGGER-IREF"), .p_trigger_in_atomic_swc_instance_ref⟩,
   ⟨.LanguageOverviewParagraph, .language_overview_paragraph, none, .language_overview_paragraph⟩,
   ⟨.CompuConst, .compu_const, (some "COMPU-DEFAULT-VALUE"), .compu_const⟩,
   ⟨.CompuConst, .compu_const, (some "COMPU-CONST"), .compu_const⟩,
   ⟨.CompuConst, .compu_const, (some "COMPU-INVERSE-VALUE"), .compu_const⟩,
   ⟨.ValueGroup, .value_group, (some "VG"), .value_group⟩,
   ⟨.SingleLanguageUnitNames, .single_language_unit_names, (some "UNIT-DISPLAY-NAME"), .single_language_unit_names⟩,
   ⟨.DocumentationBlock, .documentation_block, (some "INTRODUCTION"), .documentation_block⟩,
   ⟨.ProviderPortInstanceRef, .port_in_composition_type_instance_ref, (some "PROVIDER-IREF"), .port_in_composition_type_instance_ref⟩,
   ⟨.RequesterPortInstanceRef, .port_in_composition_type_instance_ref, (some "REQUESTER-IREF"), .port_in_composition_type_instance_ref⟩,
   ⟨.InnerProvidedPortInstanceRef, .port_in_composition_type_instance_ref, (some "P-PORT-IN-COMPOSITION-INSTANCE-REF"), .port_in_composition_type_instance_ref⟩,
   ⟨.InnerRequiredPortInstanceRef, .port_in_composition_type_instance_ref, (some "R-PORT-IN-COMPOSITION-INSTANCE-REF"), .port_in_composition_type_instance_ref⟩,
   ⟨.ExclusiveArea, .exclusive_area, none, .exclusive_area⟩,
   ⟨.ROperationInAtomicSwcInstanceRef, .r_operation_in_atomic_swc_instance_ref, none, .r_operation_in_atomic_swc_instance_ref⟩,
   ⟨.ExternalTriggeringPointIdent, .external_triggering_point_ident, none, .external_triggering_point_ident⟩,
   ⟨.ModeAccessPointIdent, .mode_access_point_ident, none, .mode_access_point_ident⟩,
   ⟨.PModeGroupInAtomicSwcInstanceRef, .p_mode_group_in_atomic_swc_instance_ref, (some "P-MODE-GROUP-IN-ATOMIC-SWC-INSTANCE-REF"), .p_mode_group_in_atomic_swc_instance_ref⟩]

end Verif.Codec
