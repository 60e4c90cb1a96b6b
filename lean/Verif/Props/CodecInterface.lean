import Verif.Codec.Roundtrip
/-
C42: port interfaces and mode declaration groups survive XML.
-/
namespace Verif.Props.CodecInterface
open Verif.Py Verif.Num Verif.Codec Verif.Codec.Spec

/-- Port interfaces, mode declaration groups and what they consist of, with the tag given to
`write_str_elem` and the type name given to `read_str_elem` (element.py 2830-3730). -/
def forms : List (Cls × Option String × Option String) :=
  [(.NvDataInterface, none, none), (.ParameterInterface, none, none),
   (.SenderReceiverInterface, none, none), (.ClientServerInterface, none, none),
   (.ModeSwitchInterface, none, none), (.ModeDeclarationGroup, none, none),
   (.InvalidationPolicy, none, none), (.ApplicationError, none, none),
   (.ClientServerOperation, none, none), (.ArgumentDataPrototype, none, none),
   (.ModeDeclaration, none, none),
   (.ModeErrorBehavior, some "MODE-MANAGER-ERROR-BEHAVIOR", none),
   (.ModeErrorBehavior, some "MODE-USER-ERROR-BEHAVIOR", none), (.ModeTransition, none, none),
   (.ModeDeclarationGroupPrototype, some "MODE-DECLARATION-GROUP-PROTOTYPE", none),
   (.VariableDataPrototype, some "VARIABLE-DATA-PROTOTYPE", some "VariableDataPrototype"),
   (.ParameterDataPrototype, some "PARAMETER-DATA-PROTOTYPE", some "ParameterDataPrototype")]

/-- Lost: the UUIDs of port interfaces, errors, operations, modes and transitions. -/
def lost : Cls → List String
  | .NvDataInterface | .ParameterInterface | .SenderReceiverInterface
  | .ClientServerInterface | .ModeSwitchInterface | .ApplicationError
  | .ClientServerOperation | .ModeDeclaration | .ModeTransition => ["uuid"]
  | _ => []

/-- Only the first element is left: the annotations of data definition properties. -/
def first : Cls → List String
  | .SwDataDefPropsConditional => ["annotations"]
  | _ => []

/-- The classes objects of these classes consist of. -/
def parts : List Cls :=
  forms.map (·.1) ++
  [.MultilanguageLongName, .LanguageLongName, .MultiLanguageOverviewParagraph,
   .LanguageOverviewParagraph, .TechnicalTerm, .SwDataDefProps, .SwDataDefPropsConditional,
   .SwBitRepresentation, .SwTextProps, .SwPointerTargetProps, .Annotation, .DocumentationBlock,
   .MultiLanguageParagraph, .MultiLanguageVerbatim, .LanguageParagraph, .LanguageVerbatim,
   .TextValueSpecification, .NumericalValueSpecification, .NotAvailableValueSpecification,
   .ArrayValueSpecification, .RecordValueSpecification, .ApplicationValueSpecification,
   .ConstantReference, .SwValueCont, .SwAxisCont, .SwValues, .ValueList, .ValueGroup,
   .SingleLanguageUnitNames, .Subscript, .Superscript]

/-- C42: port interfaces and mode declaration groups that are written and read back are the same,
except for the attributes and annotations named above. -/
theorem C42_survives : ∀ x ∈ forms, ∀ v, WellFormed x.1 v →
    SurvivesBut lost first x.2.1 x.2.2 v :=
  all_survive_but (S := parts) (by decide +kernel) (by decide +kernel)

/-- An interface with two data elements and an initial value. -/
def sample : Val Cls :=
  .obj .SenderReceiverInterface
    [("name", .str "Speed_I"), ("is_service", .bool false),
     ("data_elements", .list
       [.obj .VariableDataPrototype
          [("name", .str "Speed"),
           ("type_ref", .ref ⟨"AutosarDataTypeRef", "/T/u16", "IMPLEMENTATION_DATA_TYPE"⟩),
           ("init_value", .obj .NumericalValueSpecification [("value", .num (.int 65535))])],
        .obj .VariableDataPrototype [("name", .str "Valid")]]),
     ("invalidation_policies", .list [.obj .InvalidationPolicy
       [("data_element_ref", .ref ⟨"VariableDataPrototypeRef", "/I/Speed_I/Speed",
          "VARIABLE_DATA_PROTOTYPE"⟩),
        ("handle_invalid", .enum ⟨"HandleInvalid", "KEEP"⟩)]])]

example : WellFormed .SenderReceiverInterface sample := by decide +kernel

/-- An interface with an operation that has two arguments and an error. -/
def server : Val Cls :=
  .obj .ClientServerInterface
    [("name", .str "Nvm_I"), ("is_service", .bool true),
     ("operations", .list [.obj .ClientServerOperation
       [("name", .str "Read"),
        ("arguments", .list
          [.obj .ArgumentDataPrototype [("name", .str "id"),
             ("direction", .enum ⟨"ArgumentDirection", "IN"⟩)],
           .obj .ArgumentDataPrototype [("name", .str "data"),
             ("direction", .enum ⟨"ArgumentDirection", "OUT"⟩)]]),
        ("possible_error_refs", .list [.ref ⟨"ApplicationErrorRef", "/I/Nvm_I/E_NOT_OK",
          "APPLICATION_ERROR"⟩])]]),
     ("possible_errors", .list [.obj .ApplicationError [("name", .str "E_NOT_OK"),
       ("error_code", .num (.int 1))]])]

example : WellFormed .ClientServerInterface server := by decide +kernel

/-- The port interface classes. -/
def interfaces : List Cls :=
  [.NvDataInterface, .ParameterInterface, .SenderReceiverInterface, .ClientServerInterface,
   .ModeSwitchInterface]

/-- What cannot be written: a port interface with a service kind, whatever else is set. -/
theorem C42_service_kind (c : Cls) (hc : c ∈ interfaces) (fs : List (String × Val Cls)) (kind : String)
    (h : dictGet fs "service_kind" = some (.enum ⟨"ServiceKind", kind⟩)) :
    ∃ e, writeStrElem none (.obj c fs) = .error e := by
  have hi : writeItem tables (wdenFields tables fs)
      (.one .notNone "service_kind" none [(.any, .text "SERVICE-KIND" .enum)] none) =
        .error .keyError := by
    simp only [writeItem, wdenFields_get, h, Option.map_some]
    rfl
  simp only [interfaces, List.mem_cons, List.not_mem_nil, or_false] at hc
  rcases hc with rfl | rfl | rfl | rfl | rfl <;>
  exact elem_error rfl rfl
    (by simp [Writer.port_interface, Writer.opt] : WItem.one .notNone "service_kind" none
      [(.any, .text "SERVICE-KIND" .enum)] none ∈ _ ++ Writer.port_interface ++ _) hi

/-- The simplest case: KeyError. -/
theorem C42_findings : writeStrElem none (.obj .ClientServerInterface
      [("name", .str "I"), ("service_kind", .enum ⟨"ServiceKind", "COM_MANAGER"⟩)]) =
    .error .keyError := by
  rfl

end Verif.Props.CodecInterface
