import Verif.Codec.Roundtrip
/-
C43: ports and communication specifications survive XML.
-/
namespace Verif.Props.CodecPort
open Verif.Py Verif.Num Verif.Codec Verif.Codec.Spec

/-- Ports, communication specifications and what they consist of, with the tag given to
`write_str_elem` and the type name given to `read_str_elem` (element.py 3732-4690). -/
def forms : List (Cls × Option String × Option String) :=
  [(.ProvidePortPrototype, none, none), (.RequirePortPrototype, none, none),
   (.PRPortPrototype, none, none), (.ModeSwitchSenderComSpec, none, none),
   (.QueuedSenderComSpec, none, none), (.NonqueuedSenderComSpec, none, none),
   (.NvProvideComSpec, none, none), (.ParameterProvideComSpec, none, none),
   (.ServerComSpec, none, none), (.QueuedReceiverComSpec, none, none),
   (.NonqueuedReceiverComSpec, none, none), (.NvRequireComSpec, none, none),
   (.ParameterRequireComSpec, none, none), (.ModeSwitchReceiverComSpec, none, none),
   (.ClientComSpec, none, none), (.ModeSwitchedAckRequest, none, none),
   (.TransmissionAcknowledgementRequest, none, none), (.TransmissionComSpecProps, none, none),
   (.ReceptionComSpecProps, none, none), (.EndToEndTransformationComSpecProps, none, none),
   (.DataFilter, some "DATA-FILTER", none)]

/-- Lost: the UUIDs of ports and variable accesses. -/
def lost : Cls → List String
  | .ProvidePortPrototype | .RequirePortPrototype | .PRPortPrototype | .VariableAccess => ["uuid"]
  | _ => []

/-- Only the first element is left: the annotations of data definition properties. -/
def first : Cls → List String
  | .SwDataDefPropsConditional => ["annotations"]
  | _ => []

/-- The classes objects of these classes consist of. -/
def parts : List Cls :=
  forms.map (·.1) ++
  [.MultilanguageLongName, .LanguageLongName, .MultiLanguageOverviewParagraph,
   .LanguageOverviewParagraph, .TechnicalTerm, .SwDataDefProps, .SwDataDefPropsConditional,
   .SwBitRepresentation, .SwTextProps, .SwPointerTargetProps, .Annotation, .DocumentationBlock,
   .MultiLanguageParagraph, .MultiLanguageVerbatim, .LanguageParagraph, .LanguageVerbatim,
   .TextValueSpecification, .NumericalValueSpecification, .NotAvailableValueSpecification,
   .ArrayValueSpecification, .RecordValueSpecification, .ApplicationValueSpecification,
   .ConstantReference, .SwValueCont, .SwAxisCont, .SwValues, .ValueList, .ValueGroup,
   .SingleLanguageUnitNames, .Subscript, .Superscript, .VariableAccess, .AutosarVariableRef,
   .ArVariableInImplementationDataInstanceRef, .VariableInAtomicSWCTypeInstanceRef]

/-- C43: ports with any number of communication specifications of any kind, and communication
specifications alone, that are written and read back are the same, except for the attributes and
annotations named above. -/
theorem C43_survives : ∀ x ∈ forms, ∀ v, WellFormed x.1 v →
    SurvivesBut lost first x.2.1 x.2.2 v :=
  all_survive_but (S := parts) (by decide +kernel) (by decide +kernel)

/-- A port with communication specifications for two elements. -/
def sample : Val Cls :=
  .obj .RequirePortPrototype
    [("name", .str "Speed"),
     ("port_interface_ref", .ref ⟨"PortInterfaceRef", "/I/Speed_I", "SENDER_RECEIVER_INTERFACE"⟩),
     ("com_spec", .list
       [.obj .NonqueuedReceiverComSpec
          [("data_element_ref", .ref ⟨"AutosarDataPrototypeRef", "/I/Speed_I/Speed",
              "VARIABLE_DATA_PROTOTYPE"⟩),
           ("alive_timeout", .num (.float (.fin false 25 (-1)))),
           ("enable_update", .bool false),
           ("data_filter", .obj .DataFilter
             [("data_filter_type", .enum ⟨"DataFilterType", "MASKED_NEW_EQUALS_X"⟩),
              ("mask", .num (.int 15)), ("x", .num (.int 3))]),
           ("init_value", .obj .NumericalValueSpecification [("value", .num (.int 0))])],
        .obj .QueuedReceiverComSpec
          [("data_element_ref", .ref ⟨"AutosarDataPrototypeRef", "/I/Speed_I/Log",
              "VARIABLE_DATA_PROTOTYPE"⟩),
           ("queue_length", .num (.int 8))]]),
     ("allow_unconnected", .bool true)]

example : WellFormed .RequirePortPrototype sample := by decide +kernel

end Verif.Props.CodecPort
