import Verif.Codec.Schema
import Verif.Ref.Model
/-
`ref()` of elements and of their parts: what it is made of, and who is whose parent after the
constructors have run (src/autosar/xml/element.py; all line numbers are of that file).
-/
namespace Verif.Codec.Owner
open Verif.Py Verif.Ref
open Verif.Codec (Cls Val)

/-- The `ref()` methods: class of the reference and destination, if one is passed. -/
def refMethod : Cls → Option (String × Option String)
  | .CompuMethod => some ("CompuMethodRef", none) -- 1277-1283
  | .DataConstraint => some ("DataConstraintRef", none) -- 1451-1457
  | .Unit => some ("UnitRef", none) -- 1552-1558
  | .SwBaseType => some ("SwBaseTypeRef", none) -- 1603-1609
  | .ImplementationDataTypeElement => some ("AbstractImplementationDataTypeElementRef", some "IMPLEMENTATION_DATA_TYPE_ELEMENT") -- 1932-1941
  | .ImplementationDataType => some ("ImplementationDataTypeRef", none) -- 1988-1994
  | .VariableDataPrototype => some ("VariableDataPrototypeRef", none) -- 2054-2060
  | .ParameterDataPrototype => some ("ParameterDataPrototypeRef", none) -- 2087-2093
  | .ArgumentDataPrototype => some ("ArgumentDataPrototypeRef", none) -- 2115-2121
  | .ApplicationPrimitiveDataType => some ("ApplicationDataTypeRef", some "APPLICATION_PRIMITIVE_DATA_TYPE") -- 2152-2160
  | .ApplicationArrayElement => some ("ApplicationArrayElementRef", none) -- 2200-2208
  | .ApplicationArrayDataType => some ("ApplicationDataTypeRef", some "APPLICATION_ARRAY_DATA_TYPE") -- 2228-2236
  | .ApplicationRecordElement => some ("ApplicationRecordElementRef", none) -- 2253-2261
  | .ApplicationRecordDataType => some ("ApplicationDataTypeRef", some "APPLICATION_RECORD_DATA_TYPE") -- 2298-2306
  | .DataTypeMappingSet => some ("DataTypeMappingSetRef", none) -- 2356-2364
  | .SwAddrMethod => some ("SwAddrMethodRef", none) -- 2408-2414
  | .ConstantSpecification => some ("ConstantRef", none) -- 2786-2792
  | .ModeDeclaration => some ("ModeDeclarationRef", none) -- 3125-3131
  | .ModeDeclarationGroup => some ("ModeDeclarationGroupRef", none) -- 3274-3280
  | .ModeDeclarationGroupPrototype => some ("ModeDeclarationGroupPrototypeRef", none) -- 3301-3307
  | .SenderReceiverInterface => some ("PortInterfaceRef", some "SENDER_RECEIVER_INTERFACE") -- 3404-3412
  | .NvDataInterface => some ("PortInterfaceRef", some "NV_DATA_INTERFACE") -- 3491-3499
  | .ParameterInterface => some ("PortInterfaceRef", some "PARAMETER_INTERFACE") -- 3548-3556
  | .ApplicationError => some ("ApplicationErrorRef", none) -- 3597-3605
  | .ClientServerOperation => some ("ClientServerOperationRef", none) -- 3657-3665
  | .ClientServerInterface => some ("PortInterfaceRef", some "CLIENT_SERVER_INTERFACE") -- 3786-3794
  | .ModeSwitchInterface => some ("PortInterfaceRef", some "MODE_SWITCH_INTERFACE") -- 3865-3873
  | .E2EProfileCompatibilityProps => some ("E2EProfileCompatibilityPropsRef", none) -- 3909-3917
  | .ProvidePortPrototype => some ("PortPrototypeRef", some "P_PORT_PROTOTYPE") -- 4724-4732
  | .RequirePortPrototype => some ("PortPrototypeRef", some "R_PORT_PROTOTYPE") -- 4774-4782
  | .PRPortPrototype => some ("PortPrototypeRef", some "PR_PORT_PROTOTYPE") -- 4830-4838
  | .ApplicationSoftwareComponentType => some ("SwComponentTypeRef", some "APPLICATION_SW_COMPONENT_TYPE") -- 5193-5201
  | .SwComponentPrototype => some ("SwComponentPrototypeRef", none) -- 5218-5224
  | .CompositionSwComponentType => some ("SwComponentTypeRef", some "COMPOSITION_SW_COMPONENT_TYPE") -- 5361-5369
  | .VariableAccess => some ("VariableAccessRef", none) -- 5900-5908
  | .SwcImplementation => some ("SwcImplementationRef", none) -- 5930-5938
  | .AsynchronousServerCallPoint => some ("AsynchronousServerCallPointRef", none) -- 6140-6146
  | .AsynchronousServerCallResultPoint => some ("AsynchronousServerCallResultPointRef", none) -- 6165-6171
  | .ModeSwitchPoint => some ("ModeSwitchPointRef", none) -- 6300-6306
  | .RunnableEntity => some ("RunnableEntityRef", none) -- 6607-6613
  | .AsynchronousServerCallReturnsEvent => some ("RteEventRef", some "ASYNCHRONOUS_SERVER_CALL_RETURNS_EVENT") -- 7173-7181
  | .BackgroundEvent => some ("RteEventRef", some "BACKGROUND_EVENT") -- 7191-7199
  | .DataReceiveErrorEvent => some ("RteEventRef", some "DATA_RECEIVE_ERROR_EVENT") -- 7234-7242
  | .DataReceivedEvent => some ("RteEventRef", some "DATA_RECEIVED_EVENT") -- 7277-7285
  | .DataSendCompletedEvent => some ("RteEventRef", some "DATA_SEND_COMPLETED_EVENT") -- 7304-7312
  | .DataWriteCompletedEvent => some ("RteEventRef", some "DATA_WRITE_COMPLETED_EVENT") -- 7331-7339
  | .ExternalTriggerOccurredEvent => some ("RteEventRef", some "EXTERNAL_TRIGGER_OCCURRED_EVENT") -- 7371-7379
  | .InitEvent => some ("RteEventRef", some "INIT_EVENT") -- 7389-7397
  | .InternalTriggerOccurredEvent => some ("RteEventRef", some "INTERNAL_TRIGGER_OCCURRED_EVENT") -- 7416-7424
  | .ModeSwitchedAckEvent => some ("RteEventRef", some "MODE_SWITCHED_ACK_EVENT") -- 7443-7451
  | .OperationInvokedEvent => some ("RteEventRef", some "OPERATION_INVOKED_EVENT") -- 7486-7494
  | .SwcModeManagerErrorEvent => some ("RteEventRef", some "SWC_MODE_MANAGER_ERROR_EVENT") -- 7531-7539
  | .SwcModeSwitchEvent => some ("RteEventRef", some "SWC_MODE_SWITCH_EVENT") -- 7597-7605
  | .TimingEvent => some ("RteEventRef", some "TIMING_EVENT") -- 7629-7637
  | .TransformerHardErrorEvent => some ("RteEventRef", some "TRANSFORMER_HARD_ERROR_EVENT") -- 7665-7673
  | .ExclusiveArea => some ("ExclusiveAreaRef", none) -- 7798-7804
  | .SwcInternalBehavior => some ("SwcInternalBehaviorRef", none) -- 7950-7956
  | _ => none

/-- The attributes whose objects get `parent = self` when they are passed to the constructor: the
constructor hands them to the `append_*` method, which sets it.  Others are just stored: sub-elements
of implementation data types (1923-1930, 1979-1986), elements of arrays and records (2226,
2282-2296), arguments of operations (3667-3675), the mode group of an interface (3863), the internal
behaviour of a component (5151), what com-specs hold (4506). -/
def adopts : Cls → List String
  | .ModeDeclarationGroup => ["mode_declarations"] -- 3199-3209, 3244
  | .SenderReceiverInterface => ["data_elements"] -- 3385-3390, 3420
  | .NvDataInterface => ["data_elements"] -- 3481-3486, 3507
  | .ParameterInterface => ["parameters"] -- 3538-3543, 3564
  | .ClientServerInterface => ["operations", "possible_errors"] -- 3766-3784, 3802, 3812
  | .ApplicationSoftwareComponentType => ["ports"] -- 4868-4873, 4884
  | .CompositionSwComponentType => ["ports", "components", "connectors"] -- 5344-5359, 5376, 5386
  | .RunnableEntity => -- 6502-6606, 6952-7110
    ["async_server_call_result_point", "data_read_access", "data_receive_point_by_argument",
     "data_receive_point_by_value", "data_send_point", "data_write_access",
     "internal_triggering_point", "mode_switch_point", "parameter_access", "read_local_variable",
     "write_local_variable", "server_call_point", "wait_point"]
  | .SwcInternalBehavior => ["exclusive_areas", "events", "runnables"] -- 7835-7840, 7867, 7911-7923, 7963, 7973
  | _ => []

/-- Class of an object. -/
def clsOf : Val Cls → Option Cls
  | .obj c _ => some c
  | _ => none

/-- `name` of an object. -/
def shortName : Val Cls → String
  | .obj _ fs =>
    match dictGet fs "name" with
    | some (.str s) => s
    | _ => ""
  | _ => ""

/-- The `i`-th object in an attribute, an attribute with a single object having one. -/
def held : Val Cls → String → Nat → Option (Val Cls)
  | .obj _ fs, a, i =>
    match dictGet fs a with
    | some (.list l) => l[i]?
    | some v => if i = 0 then some v else none
    | none => none
  | _, _, _ => none

/-- `_calc_ref_string` (268-280) of an object held by `v` in attribute `a`, if that of `v` is `base`:
the parent is `v` if the constructor has set it, and there is none otherwise (185, 274-275). -/
def refString (base : Option String) (v : Val Cls) (a : String) (x : Val Cls) : Option String :=
  match clsOf v with
  | none => none
  | some c =>
    if a ∈ adopts c then
      match base with
      | none => none
      | some b => some (b ++ "/" ++ shortName x)
    else none

/-- Follow attributes and positions from an object whose `_calc_ref_string` is `base`: the object
there and its `_calc_ref_string`. -/
def follow : Option String → Val Cls → List (String × Nat) → Option (Val Cls × Option String)
  | base, v, [] => some (v, base)
  | base, v, (a, i) :: rest =>
    match held v a i with
    | none => none
    | some x => follow (refString base v a x) x rest

/-- `x.ref()` if `_calc_ref_string` of `x` is `text`; objects without the method raise. -/
def callRef (x : Val Cls) (text : Option String) : Except PyErr (Option RefObj) :=
  match clsOf x with
  | none => .error .attributeError
  | some c =>
    match refMethod c with
    | none => .error .attributeError
    | some (cn, d) =>
      match text with
      | none => .ok none
      | some s =>
        match construct cn s (match d with
          | none => .omitted
          | some m => .given (.enum "IdentifiableSubTypes" m)) with
        | .ok r => .ok (some r)
        | .error e => .error e

/-- `ref()` of the part at a place of an element whose own `_calc_ref_string` is `base`. -/
def partRef (base : Option String) (e : Val Cls) (place : List (String × Nat)) :
    Option (Except PyErr (Option RefObj)) :=
  (follow base e place).map fun p => callRef p.1 p.2

end Verif.Codec.Owner
