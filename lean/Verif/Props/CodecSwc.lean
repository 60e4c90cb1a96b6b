import Verif.Codec.Roundtrip
/-
C44: compositions and their components and connectors survive XML.
-/
namespace Verif.Props.CodecSwc
open Verif.Py Verif.Num Verif.Codec Verif.Codec.Spec

/-- Compositions, component prototypes and connectors, with the tag given to `write_str_elem` and
the type name given to `read_str_elem` (element.py 4692-5700). -/
def forms : List (Cls × Option String × Option String) :=
  [(.CompositionSwComponentType, none, none), (.SwComponentPrototype, none, none),
   (.AssemblySwConnector, none, none), (.DelegationSwConnector, none, none),
   (.PassThroughSwConnector, none, none), (.ProviderPortInstanceRef, some "PROVIDER-IREF", none),
   (.RequesterPortInstanceRef, some "REQUESTER-IREF", none)]

/-- Lost: the UUIDs of all of these and of ports and variable accesses. -/
def lost : Cls → List String
  | .CompositionSwComponentType | .SwComponentPrototype | .AssemblySwConnector
  | .DelegationSwConnector | .PassThroughSwConnector | .ProvidePortPrototype
  | .RequirePortPrototype | .PRPortPrototype | .VariableAccess => ["uuid"]
  | _ => []

/-- Only the first element is left: the annotations of data definition properties. -/
def first : Cls → List String
  | .SwDataDefPropsConditional => ["annotations"]
  | _ => []

/-- The classes objects of these classes consist of. -/
def parts : List Cls :=
  forms.map (·.1) ++
  [.InnerProvidedPortInstanceRef, .InnerRequiredPortInstanceRef, .ProvidePortPrototype,
   .RequirePortPrototype, .PRPortPrototype, .ModeSwitchSenderComSpec, .QueuedSenderComSpec,
   .NonqueuedSenderComSpec, .NvProvideComSpec, .ParameterProvideComSpec, .ServerComSpec,
   .QueuedReceiverComSpec, .NonqueuedReceiverComSpec, .NvRequireComSpec,
   .ParameterRequireComSpec, .ModeSwitchReceiverComSpec, .ClientComSpec, .ModeSwitchedAckRequest,
   .TransmissionAcknowledgementRequest, .TransmissionComSpecProps, .ReceptionComSpecProps,
   .EndToEndTransformationComSpecProps, .DataFilter, .MultilanguageLongName, .LanguageLongName,
   .MultiLanguageOverviewParagraph, .LanguageOverviewParagraph, .TechnicalTerm, .SwDataDefProps,
   .SwDataDefPropsConditional, .SwBitRepresentation, .SwTextProps, .SwPointerTargetProps,
   .Annotation, .DocumentationBlock, .MultiLanguageParagraph, .MultiLanguageVerbatim,
   .LanguageParagraph, .LanguageVerbatim, .TextValueSpecification, .NumericalValueSpecification,
   .NotAvailableValueSpecification, .ArrayValueSpecification, .RecordValueSpecification,
   .ApplicationValueSpecification, .ConstantReference, .SwValueCont, .SwAxisCont, .SwValues,
   .ValueList, .ValueGroup, .SingleLanguageUnitNames, .Subscript, .Superscript, .VariableAccess,
   .AutosarVariableRef, .ArVariableInImplementationDataInstanceRef,
   .VariableInAtomicSWCTypeInstanceRef]

/-- C44: compositions with any number of ports, components and connectors that are written and read
back are the same, except for the UUIDs and annotations named above. -/
theorem C44_survives : ∀ x ∈ forms, ∀ v, WellFormed x.1 v →
    SurvivesBut lost first x.2.1 x.2.2 v :=
  all_survive_but (S := parts) (by decide +kernel) (by decide +kernel)

/-- Two components, connected with each other and with a port of the composition. -/
def sample : Val Cls :=
  .obj .CompositionSwComponentType
    [("name", .str "Top"),
     ("ports", .list [.obj .RequirePortPrototype [("name", .str "In"),
       ("port_interface_ref", .ref ⟨"PortInterfaceRef", "/I/In_I", "SENDER_RECEIVER_INTERFACE"⟩)]]),
     ("components", .list
       [.obj .SwComponentPrototype [("name", .str "A"),
          ("type_ref", .ref ⟨"SwComponentTypeRef", "/S/A", "APPLICATION_SW_COMPONENT_TYPE"⟩)],
        .obj .SwComponentPrototype [("name", .str "B"),
          ("type_ref", .ref ⟨"SwComponentTypeRef", "/S/B", "APPLICATION_SW_COMPONENT_TYPE"⟩)]]),
     ("connectors", .list
       [.obj .AssemblySwConnector [("name", .str "A_B"),
          ("provide_port", .obj .ProviderPortInstanceRef
            [("component_ref", .ref ⟨"SwComponentPrototypeRef", "/S/Top/A", "SW_COMPONENT_PROTOTYPE"⟩),
             ("port_ref", .ref ⟨"PortPrototypeRef", "/S/A/Out", "P_PORT_PROTOTYPE"⟩)]),
          ("require_port", .obj .RequesterPortInstanceRef
            [("component_ref", .ref ⟨"SwComponentPrototypeRef", "/S/Top/B", "SW_COMPONENT_PROTOTYPE"⟩),
             ("port_ref", .ref ⟨"PortPrototypeRef", "/S/B/In", "R_PORT_PROTOTYPE"⟩)])],
        .obj .DelegationSwConnector [("name", .str "A_In"),
          ("inner_port", .obj .InnerRequiredPortInstanceRef
            [("component_ref", .ref ⟨"SwComponentPrototypeRef", "/S/Top/A", "SW_COMPONENT_PROTOTYPE"⟩),
             ("port_ref", .ref ⟨"PortPrototypeRef", "/S/A/In", "R_PORT_PROTOTYPE"⟩)]),
          ("outer_port", .ref ⟨"PortPrototypeRef", "/S/Top/In", "R_PORT_PROTOTYPE"⟩)]])]

example : WellFormed .CompositionSwComponentType sample := by decide +kernel

end Verif.Props.CodecSwc
