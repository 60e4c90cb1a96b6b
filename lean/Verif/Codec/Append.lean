import Verif.Codec.Rename
import Verif.Codec.Tables
/-
The `append*` methods of element classes (src/autosar/xml/element.py; all line numbers are of that
file).  Left out: `Package.append` and `PackageCollection.append` (Verif/Pkg), and
`append_port_api_option` (7978-7987), which fills a dictionary (C37).
-/
namespace Verif.Codec.Append
open Verif.Py Verif.Names Verif.Codec Verif.Codec.Rename

/-- What `isinstance` is asked for. -/
inductive Kind where
  /-- an object of one of these classes or of a class derived from them -/
  | inst (cs : List Cls)
  | str
  /-- `int`, `float` -/
  | num
  /-- `NumericalValue` -/
  | numval
  /-- a reference class -/
  | ref (cls : String)
deriving DecidableEq

/-- `isinstance`.  Simplification: that `bool` is a subclass of `int` is left out. -/
def Kind.holds : Kind → Val Cls → Bool
  | .inst cs, .obj c _ => cs.any fun d => d ∈ mro c
  | .str, .str _ => true
  | .num, .num _ => true
  | .numval, .numval _ => true
  | .ref k, .ref r => r.cls = k
  | _, _ => false

/-- The classes derived from `ValueSpecification` (2528, 2641-2808). -/
def valueSpecification : Kind :=
  .inst [.TextValueSpecification, .NumericalValueSpecification, .NotAvailableValueSpecification,
    .ArrayValueSpecification, .RecordValueSpecification, .ApplicationValueSpecification,
    .ConstantReference]

/-- The classes derived from `ProvidePortComSpec` (4138-4283). -/
def providePortComSpec : Kind :=
  .inst [.ModeSwitchSenderComSpec, .QueuedSenderComSpec, .NonqueuedSenderComSpec,
    .NvProvideComSpec, .ParameterProvideComSpec, .ServerComSpec]

/-- The classes derived from `RequirePortComSpec` (4455-4636). -/
def requirePortComSpec : Kind :=
  .inst [.QueuedReceiverComSpec, .NonqueuedReceiverComSpec, .NvRequireComSpec,
    .ParameterRequireComSpec, .ModeSwitchReceiverComSpec, .ClientComSpec]

/-- The classes derived from `PortPrototype` (4698, 4744, 4794). -/
def portPrototype : Kind := .inst [.ProvidePortPrototype, .RequirePortPrototype, .PRPortPrototype]

/-- The classes derived from `RteEvent` (7157-7640). -/
def rteEvent : Kind :=
  .inst [.AsynchronousServerCallReturnsEvent, .BackgroundEvent, .DataReceiveErrorEvent,
    .DataReceivedEvent, .DataSendCompletedEvent, .DataWriteCompletedEvent,
    .ExternalTriggerOccurredEvent, .InitEvent, .InternalTriggerOccurredEvent,
    .ModeSwitchedAckEvent, .OperationInvokedEvent, .SwcModeManagerErrorEvent, .SwcModeSwitchEvent,
    .TimingEvent, .TransformerHardErrorEvent]

/-- One branch of a method: what is added to which attribute as it is, and whether references to
exclusive areas and strings are added wrapped. -/
structure Branch where
  kinds : List Kind
  attr : String
  wraps : Bool

/-- An `append*` method: its branches in order, and what it raises if none is taken. -/
structure Method where
  name : String
  branches : List Branch
  error : PyErr

/-- The `append*` methods of each class. -/
def methods : Cls → List Method
  | .Code =>
    [⟨"append_artifact_descriptor", [⟨[.inst [.AutosarEngineeringObject]], "artifact_descriptors", false⟩], .typeError⟩] -- 422-429
  | .SwcImplementation =>
    [⟨"append_code_descriptor", [⟨[.inst [.Code]], "code_descriptors", false⟩], .typeError⟩] -- 464-471
  | .LanguageLongName =>
    [⟨"append", [⟨[.str, .inst [.TechnicalTerm, .EmphasisText, .Subscript, .Subscript, .IndexEntry]], "parts", false⟩], .typeError⟩] -- 594-601
  | .LanguageOverviewParagraph =>
    [⟨"append", [⟨[.str, .inst [.TechnicalTerm, .EmphasisText, .Subscript, .Subscript, .IndexEntry]], "parts", false⟩], .typeError⟩] -- 617-624
  | .MultilanguageLongName =>
    [⟨"append", [⟨[.inst [.LanguageLongName]], "elements", false⟩], .assertionError⟩] -- 674-679
  | .MultiLanguageOverviewParagraph =>
    [⟨"append", [⟨[.inst [.LanguageOverviewParagraph]], "elements", false⟩], .assertionError⟩] -- 729-734
  | .LanguageParagraph =>
    [⟨"append", [⟨[.str, .inst [.Break, .EmphasisText, .IndexEntry, .Subscript, .Subscript, .TechnicalTerm]], "parts", false⟩], .typeError⟩] -- 801-809
  | .MultiLanguageParagraph =>
    [⟨"append", [⟨[.inst [.LanguageParagraph]], "elements", false⟩], .assertionError⟩] -- 864-869
  | .LanguageVerbatim =>
    [⟨"append", [⟨[.str, .inst [.Break, .EmphasisText, .TechnicalTerm]], "parts", false⟩], .typeError⟩] -- 887-895
  | .MultiLanguageVerbatim =>
    [⟨"append", [⟨[.inst [.LanguageVerbatim]], "elements", false⟩], .assertionError⟩] -- 944-949
  | .SingleLanguageUnitNames =>
    [⟨"append", [⟨[.str, .inst [.Subscript, .Superscript]], "parts", false⟩], .typeError⟩] -- 960-968
  | .DocumentationBlock =>
    [⟨"append", [⟨[.inst [.MultiLanguageParagraph, .MultiLanguageVerbatim]], "elements", false⟩], .assertionError⟩] -- 1020-1027
  | .SwDataDefProps =>
    [⟨"append", [⟨[.inst [.SwDataDefPropsConditional]], "variants", false⟩], .typeError⟩] -- 1831-1838
  | .ImplementationDataTypeElement =>
    [⟨"append", [⟨[.inst [.ImplementationDataTypeElement]], "sub_elements", false⟩], .typeError⟩] -- 1923-1930
  | .ImplementationDataType =>
    [⟨"append", [⟨[.inst [.ImplementationDataTypeElement]], "sub_elements", false⟩], .typeError⟩] -- 1979-1986
  | .ApplicationRecordDataType =>
    [⟨"append", [⟨[.inst [.ApplicationRecordElement]], "elements", false⟩], .typeError⟩] -- 2282-2289
  | .DataTypeMappingSet =>
    [⟨"append", [⟨[.inst [.DataTypeMap]], "data_type_maps", false⟩], .typeError⟩] -- 2345-2354
  | .ValueList =>
    [⟨"append", [⟨[.num, .numval], "values", false⟩], .typeError⟩] -- 2382-2389
  | .SwValues | .ValueGroup =>
    [⟨"append", [⟨[.num, .str, .numval, .inst [.ValueGroup]], "values", false⟩], .typeError⟩] -- 2438-2449
  | .ArrayValueSpecification =>
    [⟨"append", [⟨[valueSpecification], "elements", false⟩], .typeError⟩] -- 2700-2706
  | .RecordValueSpecification =>
    [⟨"append", [⟨[valueSpecification], "fields", false⟩], .typeError⟩] -- 2728-2734
  | .ModeDeclarationGroup =>
    [⟨"append_mode_declaratation", [⟨[.inst [.ModeDeclaration]], "mode_declarations", false⟩], .typeError⟩, -- 3239-3248
     ⟨"append_mode_transition", [⟨[.inst [.ModeTransition]], "mode_transitions", false⟩], .typeError⟩] -- 3263-3272
  | .SenderReceiverInterface =>
    [⟨"append_data_element", [⟨[.inst [.VariableDataPrototype]], "data_elements", false⟩], .typeError⟩, -- 3414-3423
     ⟨"append_invalidation_policy", [⟨[.inst [.InvalidationPolicy]], "invalidation_policies", false⟩], .typeError⟩] -- 3425-3433
  | .NvDataInterface =>
    [⟨"append_data_element", [⟨[.inst [.VariableDataPrototype]], "data_elements", false⟩], .typeError⟩] -- 3501-3510
  | .ParameterInterface =>
    [⟨"append_parameter", [⟨[.inst [.ParameterDataPrototype]], "parameters", false⟩], .typeError⟩] -- 3558-3567
  | .ClientServerOperation =>
    [⟨"append_argument", [⟨[.inst [.ArgumentDataPrototype]], "arguments", false⟩], .typeError⟩, -- 3667-3675
     ⟨"append_possible_error_ref", [⟨[.ref "ApplicationErrorRef"], "possible_error_refs", false⟩], .typeError⟩] -- 3730-3738
  | .ClientServerInterface =>
    [⟨"append_operation", [⟨[.inst [.ClientServerOperation]], "operations", false⟩], .typeError⟩, -- 3796-3805
     ⟨"append_possible_errors", [⟨[.inst [.ApplicationError]], "possible_errors", false⟩], .typeError⟩] -- 3807-3816
  | .ServerComSpec =>
    [⟨"append_transformation_com_spec_props", [⟨[.inst [.EndToEndTransformationComSpecProps]], "transformation_com_spec_props", false⟩], .typeError⟩] -- 4316-4325
  | .QueuedReceiverComSpec | .NonqueuedReceiverComSpec =>
    [⟨"append_transformation_com_spec_props", [⟨[.inst [.EndToEndTransformationComSpecProps]], "transformation_com_spec_props", false⟩], .typeError⟩] -- 4521-4530
  | .ClientComSpec =>
    [⟨"append_transformation_com_spec_props", [⟨[.inst [.EndToEndTransformationComSpecProps]], "transformation_com_spec_props", false⟩], .typeError⟩] -- 4670-4679
  | .ProvidePortPrototype =>
    [⟨"append_com_spec", [⟨[providePortComSpec], "com_spec", false⟩], .typeError⟩] -- 4734-4741
  | .RequirePortPrototype =>
    [⟨"append_com_spec", [⟨[requirePortComSpec], "com_spec", false⟩], .typeError⟩] -- 4784-4791
  | .PRPortPrototype =>
    [⟨"append_com_spec", [⟨[providePortComSpec], "provided_com_spec", false⟩, ⟨[requirePortComSpec], "required_com_spec", false⟩], .typeError⟩] -- 4840-4849
  | .ApplicationSoftwareComponentType =>
    [⟨"append_port", [⟨[portPrototype], "ports", false⟩], .typeError⟩] -- 4879-4888
  | .CompositionSwComponentType =>
    [⟨"append_port", [⟨[portPrototype], "ports", false⟩], .typeError⟩, -- 4879-4888
     ⟨"append_component", [⟨[.inst [.SwComponentPrototype]], "components", false⟩], .typeError⟩, -- 5371-5379
     ⟨"append_connector", [⟨[.inst [.AssemblySwConnector, .DelegationSwConnector, .PassThroughSwConnector]], "connectors", false⟩], .typeError⟩] -- 5381-5389
  | .ArVariableInImplementationDataInstanceRef =>
    [⟨"append_context_data_protype_ref", [⟨[.ref "AbstractImplementationDataTypeElementRef"], "context_data_prototype_refs", false⟩], .typeError⟩] -- 5760-5767
  | .VariableInAtomicSWCTypeInstanceRef =>
    [⟨"append_context_data_protype_ref", [⟨[.ref "ApplicationCompositeElementDataPrototypeRef"], "context_data_prototype_refs", false⟩], .typeError⟩] -- 5806-5813
  | .RunnableEntity =>
    [⟨"append_activation_reason", [⟨[.inst [.ExecutableEntityActivationReason]], "activation_reasons", false⟩], .typeError⟩, -- 6042-6049
     ⟨"append_can_enter_leave", [⟨[.inst [.ExclusiveAreaRefConditional]], "can_enter_leave", true⟩], .typeError⟩, -- 6051-6060
     ⟨"append_exclusive_area_nesting_order", [⟨[.ref "ExclusiveAreaNestingOrderRef"], "exclusive_area_nesting_order", false⟩], .typeError⟩, -- 6062-6069
     ⟨"append_runs_insides", [⟨[.inst [.ExclusiveAreaRefConditional]], "runs_insides", true⟩], .typeError⟩, -- 6071-6080
     ⟨"append_argument", [⟨[.inst [.RunnableEntityArgument]], "argument", false⟩], .typeError⟩, -- 6934-6941
     ⟨"append_async_server_call_result_point", [⟨[.inst [.AsynchronousServerCallResultPoint]], "async_server_call_result_point", false⟩], .typeError⟩, -- 6943-6955
     ⟨"append_data_read_access", [⟨[.inst [.VariableAccess]], "data_read_access", false⟩], .typeError⟩, -- 6957-6966
     ⟨"append_data_receive_point_by_argument", [⟨[.inst [.VariableAccess]], "data_receive_point_by_argument", false⟩], .typeError⟩, -- 6968-6978
     ⟨"append_data_receive_point_by_value", [⟨[.inst [.VariableAccess]], "data_receive_point_by_value", false⟩], .typeError⟩, -- 6980-6990
     ⟨"append_data_send_point", [⟨[.inst [.VariableAccess]], "data_send_point", false⟩], .typeError⟩, -- 6992-7001
     ⟨"append_data_write_access", [⟨[.inst [.VariableAccess]], "data_write_access", false⟩], .typeError⟩, -- 7003-7012
     ⟨"append_external_triggering_point", [⟨[.inst [.ExternalTriggeringPoint]], "external_triggering_point", false⟩], .typeError⟩, -- 7014-7023
     ⟨"append_internal_triggering_point", [⟨[.inst [.InternalTriggeringPoint]], "internal_triggering_point", false⟩], .typeError⟩, -- 7025-7034
     ⟨"append_mode_access_point", [⟨[.inst [.ModeAccessPoint]], "mode_access_point", false⟩], .typeError⟩, -- 7036-7045
     ⟨"append_mode_switch_point", [⟨[.inst [.ModeSwitchPoint]], "mode_switch_point", false⟩], .typeError⟩, -- 7047-7056
     ⟨"append_parameter_access", [⟨[.inst [.ParameterAccess]], "parameter_access", false⟩], .typeError⟩, -- 7058-7067
     ⟨"append_read_local_variable", [⟨[.inst [.VariableAccess]], "read_local_variable", false⟩], .typeError⟩, -- 7069-7078
     ⟨"append_write_local_variable", [⟨[.inst [.VariableAccess]], "write_local_variable", false⟩], .typeError⟩, -- 7080-7089
     ⟨"append_server_call_point", [⟨[.inst [.AsynchronousServerCallPoint, .SynchronousServerCallPoint]], "server_call_point", false⟩], .typeError⟩, -- 7091-7101
     ⟨"append_wait_point", [⟨[.inst [.WaitPoint]], "wait_point", false⟩], .typeError⟩] -- 7103-7112
  | .AsynchronousServerCallReturnsEvent | .BackgroundEvent | .DataReceiveErrorEvent
  | .DataReceivedEvent | .DataSendCompletedEvent | .DataWriteCompletedEvent
  | .ExternalTriggerOccurredEvent | .InitEvent | .InternalTriggerOccurredEvent
  | .ModeSwitchedAckEvent | .OperationInvokedEvent | .SwcModeManagerErrorEvent
  | .SwcModeSwitchEvent | .TimingEvent | .TransformerHardErrorEvent =>
    [⟨"append_disabled_mode", [⟨[.inst [.RModeInAtomicSwcInstanceRef]], "disabled_modes", false⟩], .typeError⟩] -- 7147-7154
  | .PortApiOption =>
    [⟨"append_port_arg_value", [⟨[.inst [.PortDefinedArgumentValue]], "port_arg_values", false⟩], .typeError⟩, -- 7772-7779
     ⟨"append_supported_feature", [⟨[.inst [.CommunicationBufferLocking]], "supported_features", false⟩], .typeError⟩] -- 7781-7788
  | .SwcInternalBehavior =>
    [⟨"append_data_type_mapping", [⟨[.ref "DataTypeMappingSetRef"], "data_type_mappings", false⟩], .typeError⟩, -- 7852-7859
     ⟨"append_exclusive_area", [⟨[.inst [.ExclusiveArea]], "exclusive_areas", false⟩], .typeError⟩, -- 7861-7869
     ⟨"append_runnable", [⟨[.inst [.RunnableEntity]], "runnables", false⟩], .typeError⟩, -- 7958-7966
     ⟨"append_event", [⟨[rteEvent], "events", false⟩], .typeError⟩] -- 7968-7976
  | _ => []

/-- `ExclusiveAreaRefConditional(value)` (5956-5965) for a reference or a string, which becomes a
reference (base.py `_check_and_set_reference`; reference.py 533-536). -/
def wrap : Val Cls → Val Cls
  | .str s => .obj .ExclusiveAreaRefConditional
      [("exclusive_area", .ref ⟨"ExclusiveAreaRef", s, "EXCLUSIVE_AREA"⟩)]
  | v => .obj .ExclusiveAreaRefConditional [("exclusive_area", v)]

/-- What a branch adds, if it is taken. -/
def Branch.take (b : Branch) (x : Val Cls) : Option (Val Cls) :=
  if b.kinds.any fun k => k.holds x then some x
  else if b.wraps && ((Kind.ref "ExclusiveAreaRef").holds x || Kind.str.holds x) then some (wrap x)
  else none

/-- Attributes in the order of the constructor's arguments (the order in which `Val.obj` lists
them). -/
def canon (s : List (Field Cls)) (g : Field Cls → Option (Val Cls)) : List (String × Val Cls) :=
  s.filterMap fun f => (g f).map fun v => (f.attr, v)

/-- `self.attr.append(x)`, preceded by `make_unique_name_in_list` for the access points of
runnables; `none` as in `addNamed`. -/
def addTo (D : Digits) (c : Cls) (fs : List (String × Val Cls)) (a : String) (x : Val Cls) :
    Option (Val Cls) :=
  let vs := match dictGet fs a with
    | some (.list vs) => vs
    | _ => []
  (if c = .RunnableEntity ∧ a ∈ renamed then addNamed D vs x else some (vs ++ [x])).map fun ws =>
    .obj c (canon (Schema.ctor c) fun f => if f.attr = a then some (.list ws) else dictGet fs f.attr)

/-- `obj.method(x)`. -/
def add (D : Digits) (o : Val Cls) (m : String) (x : Val Cls) : Option (Except PyErr (Val Cls)) :=
  match o with
  | .obj c fs =>
    match (methods c).find? fun r => r.name = m with
    | none => some (.error .attributeError)
    | some r =>
      match r.branches.findSome? fun b => (b.take x).map fun y => (b.attr, y) with
      | none => some (.error r.error)
      | some (a, y) => (addTo D c fs a y).map .ok
  | _ => some (.error .attributeError)

/-- One call after the other. -/
def addMany (D : Digits) : Val Cls → List (String × Val Cls) → Option (Except PyErr (Val Cls))
  | o, [] => some (.ok o)
  | o, (m, x) :: calls =>
    match add D o m x with
    | some (.ok o') => addMany D o' calls
    | r => r

/-- `cls(**data)` with the names runnables give to their access points; `none` as in `addNamed`. -/
def construct (D : Digits) (c : Cls) (data : Data Cls) : Option (Except PyErr (Val Cls)) :=
  match build tables c data with
  | .ok (.obj c' fs) =>
    (if c' = .RunnableEntity then renameFields D fs else some fs).map fun fs' => .ok (.obj c' fs')
  | r => some r

end Verif.Codec.Append
