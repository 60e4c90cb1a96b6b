import Verif.Codec.Roundtrip
/-
C45: application components with internal behavior survive XML.
-/
namespace Verif.Props.CodecBehavior
open Verif.Py Verif.Num Verif.Codec Verif.Codec.Spec

/-- Application components, internal behaviors, runnables, events and access points, with the tag
given to `write_str_elem` and the type name given to `read_str_elem` (element.py 5030-7360). -/
def forms : List (Cls × Option String × Option String) :=
  [(.ApplicationSoftwareComponentType, none, none), (.SwcInternalBehavior, none, none),
   (.RunnableEntity, none, none), (.AsynchronousServerCallReturnsEvent, none, none),
   (.BackgroundEvent, none, none), (.DataReceiveErrorEvent, none, none),
   (.DataReceivedEvent, none, none), (.DataSendCompletedEvent, none, none),
   (.DataWriteCompletedEvent, none, none), (.ExternalTriggerOccurredEvent, none, none),
   (.InitEvent, none, none), (.InternalTriggerOccurredEvent, none, none),
   (.ModeSwitchedAckEvent, none, none), (.OperationInvokedEvent, none, none),
   (.SwcModeManagerErrorEvent, none, none), (.SwcModeSwitchEvent, none, none),
   (.TimingEvent, none, none), (.TransformerHardErrorEvent, none, none),
   (.AsynchronousServerCallPoint, none, none), (.SynchronousServerCallPoint, none, none),
   (.AsynchronousServerCallResultPoint, none, none), (.InternalTriggeringPoint, none, none),
   (.ModeSwitchPoint, none, none), (.ParameterAccess, none, none), (.WaitPoint, none, none),
   (.ExternalTriggeringPoint, none, none), (.ModeAccessPoint, none, none),
   (.PortApiOption, none, none), (.PortDefinedArgumentValue, none, none),
   (.CommunicationBufferLocking, none, none), (.ExecutableEntityActivationReason, none, none),
   (.ExclusiveAreaRefConditional, none, none), (.RunnableEntityArgument, none, none),
   (.VariableAccess, some "VARIABLE-ACCESS", none),
   (.AutosarVariableRef, some "ACCESSED-VARIABLE", none),
   (.AutosarParameterRef, some "ACCESSED-PARAMETER", none),
   (.VariableInAtomicSWCTypeInstanceRef, none, none),
   (.ArVariableInImplementationDataInstanceRef, some "AUTOSAR-VARIABLE-IN-IMPL-DATATYPE", none),
   (.ParameterInAtomicSwcTypeInstanceRef, none, none),
   (.RModeInAtomicSwcInstanceRef, some "DISABLED-MODE-IREF", none),
   (.RModeGroupInAtomicSwcInstanceRef, none, none)]

/-- Lost: the UUIDs of components, behaviors, runnables, events, ports and access points. -/
def lost : Cls → List String
  | .ApplicationSoftwareComponentType | .SwcInternalBehavior | .RunnableEntity
  | .AsynchronousServerCallReturnsEvent | .BackgroundEvent | .DataReceiveErrorEvent
  | .DataReceivedEvent | .DataSendCompletedEvent | .DataWriteCompletedEvent
  | .ExternalTriggerOccurredEvent | .InitEvent | .InternalTriggerOccurredEvent
  | .ModeSwitchedAckEvent | .OperationInvokedEvent | .SwcModeManagerErrorEvent
  | .SwcModeSwitchEvent | .TimingEvent | .TransformerHardErrorEvent
  | .AsynchronousServerCallPoint | .SynchronousServerCallPoint
  | .AsynchronousServerCallResultPoint | .InternalTriggeringPoint | .ModeSwitchPoint
  | .ParameterAccess | .WaitPoint | .ExclusiveArea | .VariableAccess
  | .ExternalTriggeringPointIdent | .ModeAccessPointIdent | .ProvidePortPrototype
  | .RequirePortPrototype | .PRPortPrototype => ["uuid"]
  | _ => []

/-- Only the first element is left: the annotations of data definition properties. -/
def first : Cls → List String
  | .SwDataDefPropsConditional => ["annotations"]
  | _ => []

/-- The classes objects of these classes consist of. -/
def parts : List Cls :=
  forms.map (·.1) ++
  [.ExclusiveArea, .SymbolProps, .ExternalTriggeringPointIdent, .ModeAccessPointIdent,
   .RVariableInAtomicSwcInstanceRef, .RTriggerInAtomicSwcInstanceRef,
   .POperationInAtomicSwcInstanceRef, .PModeGroupInAtomicSwcInstanceRef,
   .PTriggerInAtomicSwcTypeInstanceRef, .ROperationInAtomicSwcInstanceRef, .ProvidePortPrototype,
   .RequirePortPrototype, .PRPortPrototype, .ModeSwitchSenderComSpec, .QueuedSenderComSpec,
   .NonqueuedSenderComSpec, .NvProvideComSpec, .ParameterProvideComSpec, .ServerComSpec,
   .QueuedReceiverComSpec, .NonqueuedReceiverComSpec, .NvRequireComSpec,
   .ParameterRequireComSpec, .ModeSwitchReceiverComSpec, .ClientComSpec, .ModeSwitchedAckRequest,
   .TransmissionAcknowledgementRequest, .TransmissionComSpecProps, .ReceptionComSpecProps,
   .EndToEndTransformationComSpecProps, .DataFilter, .MultilanguageLongName, .LanguageLongName,
   .MultiLanguageOverviewParagraph, .LanguageOverviewParagraph, .TechnicalTerm, .SwDataDefProps,
   .SwDataDefPropsConditional, .SwBitRepresentation, .SwTextProps, .SwPointerTargetProps,
   .Annotation, .DocumentationBlock, .MultiLanguageParagraph, .MultiLanguageVerbatim,
   .LanguageParagraph, .LanguageVerbatim, .TextValueSpecification, .NumericalValueSpecification,
   .NotAvailableValueSpecification, .ArrayValueSpecification, .RecordValueSpecification,
   .ApplicationValueSpecification, .ConstantReference, .SwValueCont, .SwAxisCont, .SwValues,
   .ValueList, .ValueGroup, .SingleLanguageUnitNames, .Subscript, .Superscript]

/-- C45: application components with ports and an internal behavior (any number of runnables, events
of all kinds, access points of all kinds, port API options) that are written and read back are the
same, except for the UUIDs and annotations named above. -/
theorem C45_survives : ∀ x ∈ forms, ∀ v, WellFormed x.1 v →
    SurvivesBut lost first x.2.1 x.2.2 v :=
  all_survive_but (S := parts) (by decide +kernel) (by decide +kernel)

/-- A component with a runnable that is called periodically and reads a variable. -/
def sample : Val Cls :=
  .obj .ApplicationSoftwareComponentType
    [("name", .str "Swc"),
     ("ports", .list [.obj .RequirePortPrototype [("name", .str "In"),
       ("port_interface_ref", .ref ⟨"PortInterfaceRef", "/I/In_I", "SENDER_RECEIVER_INTERFACE"⟩)]]),
     ("internal_behavior", .obj .SwcInternalBehavior
       [("name", .str "Swc_InternalBehavior"),
        ("exclusive_areas", .list [.obj .ExclusiveArea [("name", .str "Area")]]),
        ("events", .list
          [.obj .InitEvent [("name", .str "IT_Init"),
             ("start_on_event", .ref ⟨"RunnableEntityRef", "/S/Swc/B/Init", "RUNNABLE_ENTITY"⟩)],
           .obj .TimingEvent [("name", .str "TT_Run"),
             ("start_on_event", .ref ⟨"RunnableEntityRef", "/S/Swc/B/Run", "RUNNABLE_ENTITY"⟩),
             ("disabled_modes", .list [.obj .RModeInAtomicSwcInstanceRef
               [("context_port", .ref ⟨"AbstractRequiredPortPrototypeRef", "/S/Swc/Mode",
                   "R_PORT_PROTOTYPE"⟩),
                ("target_mode_declaration", .ref ⟨"ModeDeclarationRef", "/M/G/OFF",
                   "MODE_DECLARATION"⟩)]]),
             ("period", .num (.float (.fin false 1 (-2))))]]),
        ("runnables", .list
          [.obj .RunnableEntity [("name", .str "Run"),
             ("can_enter_leave", .list [.obj .ExclusiveAreaRefConditional
               [("exclusive_area", .ref ⟨"ExclusiveAreaRef", "/S/Swc/B/Area",
                  "EXCLUSIVE_AREA"⟩)]]),
             ("minimum_start_interval", .num (.float (.fin false 0 0))),
             ("can_be_invoked_concurrently", .bool false),
             ("data_read_access", .list [.obj .VariableAccess [("name", .str "READ_In"),
               ("accessed_variable", .obj .AutosarVariableRef
                 [("ar_variable_iref", .obj .VariableInAtomicSWCTypeInstanceRef
                   [("port_prototype_ref", .ref ⟨"PortPrototypeRef", "/S/Swc/In",
                       "R_PORT_PROTOTYPE"⟩),
                    ("target_data_prototype_ref", .ref ⟨"DataPrototypeRef", "/I/In_I/In",
                       "VARIABLE_DATA_PROTOTYPE"⟩)])])]]),
             ("symbol", .str "Swc_Run")]])])]

example : WellFormed .ApplicationSoftwareComponentType sample := by decide +kernel

end Verif.Props.CodecBehavior
