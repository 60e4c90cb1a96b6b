import Verif.Codec.Owner
import Verif.Codec.MapSpec
/-
What references to elements and their parts should be (C57).
-/
namespace Verif.Codec.OwnerSpec
open Verif.Codec Verif.Codec.Owner

/-- The names of the classes in files: the tags of their elements, and the names of the AUTOSAR types
where the tag is a role (`ELEMENT`, `MODE-GROUP`) or stands nowhere else. -/
def typeNames : List (String × Cls) :=
  Map.tagClasses ++
  [("SWC-INTERNAL-BEHAVIOR", .SwcInternalBehavior),
   ("SW-COMPONENT-PROTOTYPE", .SwComponentPrototype),
   ("MODE-DECLARATION-GROUP-PROTOTYPE", .ModeDeclarationGroupPrototype),
   ("APPLICATION-ARRAY-ELEMENT", .ApplicationArrayElement)]

/-- The classes of which objects can be referred to. -/
def referable : List Cls :=
  [.CompuMethod, .DataConstraint, .Unit, .SwBaseType, .ImplementationDataTypeElement,
   .ImplementationDataType, .VariableDataPrototype, .ParameterDataPrototype,
   .ArgumentDataPrototype, .ApplicationPrimitiveDataType, .ApplicationArrayElement,
   .ApplicationArrayDataType, .ApplicationRecordElement, .ApplicationRecordDataType,
   .DataTypeMappingSet, .SwAddrMethod, .ConstantSpecification, .ModeDeclaration,
   .ModeDeclarationGroup, .ModeDeclarationGroupPrototype, .SenderReceiverInterface,
   .NvDataInterface, .ParameterInterface, .ApplicationError, .ClientServerOperation,
   .ClientServerInterface, .ModeSwitchInterface, .E2EProfileCompatibilityProps,
   .ProvidePortPrototype, .RequirePortPrototype, .PRPortPrototype,
   .ApplicationSoftwareComponentType, .SwComponentPrototype, .CompositionSwComponentType,
   .VariableAccess, .SwcImplementation, .AsynchronousServerCallPoint,
   .AsynchronousServerCallResultPoint, .ModeSwitchPoint, .RunnableEntity,
   .AsynchronousServerCallReturnsEvent, .BackgroundEvent, .DataReceiveErrorEvent,
   .DataReceivedEvent, .DataSendCompletedEvent, .DataWriteCompletedEvent,
   .ExternalTriggerOccurredEvent, .InitEvent, .InternalTriggerOccurredEvent, .ModeSwitchedAckEvent,
   .OperationInvokedEvent, .SwcModeManagerErrorEvent, .SwcModeSwitchEvent, .TimingEvent,
   .TransformerHardErrorEvent, .ExclusiveArea, .SwcInternalBehavior]

/-- Where objects that can be referred to are held without knowing by whom. -/
def orphans : List (Cls × String) :=
  [(.ImplementationDataType, "sub_elements"), (.ImplementationDataTypeElement, "sub_elements"),
   (.ApplicationArrayDataType, "element"), (.ApplicationRecordDataType, "elements"),
   (.ClientServerOperation, "arguments"), (.ModeSwitchInterface, "mode_group"),
   (.ApplicationSoftwareComponentType, "internal_behavior"),
   (.QueuedReceiverComSpec, "replace_with"), (.NonqueuedReceiverComSpec, "replace_with")]

/-- Objects of class `d` may stand in attribute `a` of class `c`. -/
def Accepts (c : Cls) (a : String) (d : Cls) : Prop :=
  ∃ f ∈ Schema.ctor c, f.attr = a ∧ STy.cls d ∈ f.alts

/-- A path continued by names, each behind a slash. -/
def extend (base : String) : List String → String
  | [] => base
  | n :: ns => extend (base ++ "/" ++ n) ns

/-- `x` is at that place of `v`, below objects with these classes in these attributes; the names are
those of the objects on the way, ending with that of `x`. -/
inductive Part : Val Cls → List (String × Nat) → List (Cls × String) → List String → Val Cls → Prop
  | here {v : Val Cls} : Part v [] [] [] v
  | step {v x y : Val Cls} {a : String} {i : Nat} {c d : Cls} {rest : List (String × Nat)}
      {steps : List (Cls × String)} {names : List String} :
      clsOf v = some c → held v a i = some x → clsOf x = some d → Accepts c a d →
      Part x rest steps names y → Part v ((a, i) :: rest) ((c, a) :: steps) (shortName x :: names) y

end Verif.Codec.OwnerSpec
