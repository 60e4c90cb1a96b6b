import Verif.Codec.Append
/-
Which argument of the constructor the parts added by a method are (C60).
-/
namespace Verif.Codec.AppendSpec
open Verif.Codec

/-- The methods that add parts, and the constructor arguments that are lists of these parts. -/
def partMethods : Cls → List (String × List String)
  | .Code =>
    [("append_artifact_descriptor", ["artifact_descriptors"])]
  | .SwcImplementation =>
    [("append_code_descriptor", ["code_descriptors"])]
  | .LanguageLongName | .LanguageOverviewParagraph | .LanguageParagraph | .LanguageVerbatim
  | .SingleLanguageUnitNames =>
    [("append", ["parts"])]
  | .MultilanguageLongName | .ApplicationRecordDataType | .ArrayValueSpecification =>
    [("append", ["elements"])]
  | .MultiLanguageOverviewParagraph | .MultiLanguageParagraph =>
    [("append", ["paragraph"])]
  | .MultiLanguageVerbatim | .DocumentationBlock =>
    [("append", ["element"])]
  | .SwDataDefProps =>
    [("append", ["variants"])]
  | .ImplementationDataTypeElement | .ImplementationDataType =>
    [("append", ["sub_elements"])]
  | .DataTypeMappingSet =>
    [("append", ["data_type_maps"])]
  | .ValueList | .SwValues | .ValueGroup =>
    [("append", ["values"])]
  | .RecordValueSpecification =>
    [("append", ["fields"])]
  | .ModeDeclarationGroup =>
    [("append_mode_declaratation", ["mode_declarations"]),
     ("append_mode_transition", ["mode_transitions"])]
  | .SenderReceiverInterface =>
    [("append_data_element", ["data_elements"]),
     ("append_invalidation_policy", ["invalidation_policies"])]
  | .NvDataInterface =>
    [("append_data_element", ["data_elements"])]
  | .ParameterInterface =>
    [("append_parameter", ["parameters"])]
  | .ClientServerOperation =>
    [("append_argument", ["arguments"]),
     ("append_possible_error_ref", ["possible_error_refs"])]
  | .ClientServerInterface =>
    [("append_operation", ["operations"]),
     ("append_possible_errors", ["possible_errors"])]
  | .ServerComSpec | .QueuedReceiverComSpec | .NonqueuedReceiverComSpec | .ClientComSpec =>
    [("append_transformation_com_spec_props", ["transformation_com_spec_props"])]
  | .ProvidePortPrototype | .RequirePortPrototype =>
    [("append_com_spec", ["com_spec"])]
  | .PRPortPrototype =>
    [("append_com_spec", ["provided_com_spec", "required_com_spec"])]
  | .ApplicationSoftwareComponentType =>
    [("append_port", ["ports"])]
  | .CompositionSwComponentType =>
    [("append_port", ["ports"]),
     ("append_component", ["components"]),
     ("append_connector", ["connectors"])]
  | .ArVariableInImplementationDataInstanceRef | .VariableInAtomicSWCTypeInstanceRef =>
    [("append_context_data_protype_ref", ["context_data_prototype_refs"])]
  | .RunnableEntity =>
    [("append_activation_reason", ["activation_reasons"]),
     ("append_can_enter_leave", ["can_enter_leave"]),
     ("append_exclusive_area_nesting_order", ["exclusive_area_nesting_order"]),
     ("append_runs_insides", ["runs_insides"]),
     ("append_argument", ["argument"]),
     ("append_async_server_call_result_point", ["async_server_call_result_point"]),
     ("append_data_read_access", ["data_read_access"]),
     ("append_data_receive_point_by_argument", ["data_receive_point_by_argument"]),
     ("append_data_receive_point_by_value", ["data_receive_point_by_value"]),
     ("append_data_send_point", ["data_send_point"]),
     ("append_data_write_access", ["data_write_access"]),
     ("append_external_triggering_point", ["external_triggering_point"]),
     ("append_internal_triggering_point", ["internal_triggering_point"]),
     ("append_mode_access_point", ["mode_access_point"]),
     ("append_mode_switch_point", ["mode_switch_point"]),
     ("append_parameter_access", ["parameter_access"]),
     ("append_read_local_variable", ["read_local_variable"]),
     ("append_write_local_variable", ["write_local_variable"]),
     ("append_server_call_point", ["server_call_point"]),
     ("append_wait_point", ["wait_point"])]
  | .AsynchronousServerCallReturnsEvent | .BackgroundEvent | .DataReceiveErrorEvent
  | .DataReceivedEvent | .DataSendCompletedEvent | .DataWriteCompletedEvent
  | .ExternalTriggerOccurredEvent | .InitEvent | .InternalTriggerOccurredEvent
  | .ModeSwitchedAckEvent | .OperationInvokedEvent | .SwcModeManagerErrorEvent
  | .SwcModeSwitchEvent | .TimingEvent | .TransformerHardErrorEvent =>
    [("append_disabled_mode", ["disabled_modes"])]
  | .PortApiOption =>
    [("append_port_arg_value", ["port_arg_values"]),
     ("append_supported_feature", ["supported_features"])]
  | .SwcInternalBehavior =>
    [("append_data_type_mapping", ["data_type_mappings"]),
     ("append_exclusive_area", ["exclusive_areas"]),
     ("append_runnable", ["runnables"]),
     ("append_event", ["events"])]
  | _ => []

/-- The methods that also take the reference to an exclusive area, or its path. -/
def areaMethods : List String := ["append_can_enter_leave", "append_runs_insides"]

/-- The object a reference to an exclusive area or a path stands for. -/
def areaEntry : Val Cls → Val Cls
  | .ref r =>
    if r.cls = "ExclusiveAreaRef" then .obj .ExclusiveAreaRefConditional [("exclusive_area", .ref r)]
    else .ref r
  | .str s => .obj .ExclusiveAreaRefConditional
      [("exclusive_area", .ref ⟨"ExclusiveAreaRef", s, "EXCLUSIVE_AREA"⟩)]
  | v => v

/-- The object that is meant by an argument of a method. -/
def meant (m : String) (x : Val Cls) : Val Cls := if m ∈ areaMethods then areaEntry x else x

/-- The constructor takes lists with this value as that argument. -/
def accepts (c : Cls) (p : String) (x : Val Cls) : Bool :=
  (Schema.ctor c).any fun f => f.param = p && f.alts.any fun a => fitsS a x

/-- The constructor argument to which a call adds, and what. -/
def part (c : Cls) (m : String) (x : Val Cls) : Option (String × Val Cls) :=
  match (partMethods c).find? fun r => r.1 = m with
  | none => none
  | some r => (r.2.find? fun p => accepts c p (meant m x)).map fun p => (p, meant m x)

/-- The parts that calls add to a constructor argument, in order. -/
def parts (c : Cls) (calls : List (String × Val Cls)) (p : String) : List (Val Cls) :=
  calls.filterMap fun call =>
    match part c call.1 call.2 with
    | some (q, y) => if q = p then some y else none
    | none => none

/-- The constructor arguments that are lists of parts. -/
def lists (c : Cls) : List String := (partMethods c).flatMap Prod.snd

/-- The list passed as an argument; no argument and `None` are as good as the empty list. -/
def given (data : Data Cls) (p : String) : List (Val Cls) :=
  match lastOf data p with
  | some (some (.list vs)) => vs
  | _ => []

end Verif.Codec.AppendSpec
