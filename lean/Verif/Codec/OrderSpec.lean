import Verif.Codec.Package
/-
What in a file may differ without making a difference: the order of the parts of an element, white
space between elements, elements nobody looks for.
-/
namespace Verif.Codec
open Verif.Py Verif.Xml Verif.Xml.Spec

/-- Elements that are made of parts, each with a tag of its own: the order of the parts does not
matter. -/
def recordTags : List String :=
  ["ACCESSED-PARAMETER", "ACCESSED-VARIABLE", "ANNOTATION", "APPLICATION-ARRAY-DATA-TYPE",
   "APPLICATION-ERROR", "APPLICATION-PRIMITIVE-DATA-TYPE", "APPLICATION-RECORD-DATA-TYPE",
   "APPLICATION-RECORD-ELEMENT", "APPLICATION-SW-COMPONENT-TYPE",
   "APPLICATION-VALUE-SPECIFICATION", "AR-PACKAGE", "ARGUMENT-DATA-PROTOTYPE",
   "ARRAY-VALUE-SPECIFICATION", "ASSEMBLY-SW-CONNECTOR", "ASYNCHRONOUS-SERVER-CALL-POINT",
   "ASYNCHRONOUS-SERVER-CALL-RESULT-POINT", "ASYNCHRONOUS-SERVER-CALL-RETURNS-EVENT",
   "AUTOSAR-ENGINEERING-OBJECT", "AUTOSAR-PARAMETER-IREF", "AUTOSAR-VARIABLE-IN-IMPL-DATATYPE",
   "BACKGROUND-EVENT", "BR", "CLIENT-COM-SPEC", "CLIENT-SERVER-INTERFACE",
   "CLIENT-SERVER-OPERATION", "CODE", "COMMUNICATION-BUFFER-LOCKING",
   "COMPOSITION-SW-COMPONENT-TYPE", "COMPU-CONST", "COMPU-DEFAULT-VALUE",
   "COMPU-INTERNAL-TO-PHYS", "COMPU-INVERSE-VALUE", "COMPU-METHOD", "COMPU-PHYS-TO-INTERNAL",
   "COMPU-RATIONAL-COEFFS", "COMPU-SCALE", "CONSTANT-REFERENCE", "CONSTANT-SPECIFICATION",
   "DATA-CONSTR", "DATA-CONSTR-RULE", "DATA-FILTER", "DATA-IREF", "DATA-RECEIVE-ERROR-EVENT",
   "DATA-RECEIVED-EVENT", "DATA-SEND-COMPLETED-EVENT", "DATA-TYPE-MAP", "DATA-TYPE-MAPPING-SET",
   "DATA-WRITE-COMPLETED-EVENT", "DELEGATION-SW-CONNECTOR", "DISABLED-MODE-IREF",
   "E-2-E-PROFILE-COMPATIBILITY-PROPS", "ELEMENT", "END-TO-END-TRANSFORMATION-COM-SPEC-PROPS",
   "EXCLUSIVE-AREA", "EXCLUSIVE-AREA-REF-CONDITIONAL", "EXECUTABLE-ENTITY-ACTIVATION-REASON",
   "EXTERNAL-TRIGGER-OCCURRED-EVENT", "EXTERNAL-TRIGGERING-POINT", "FILTER", "IDENT",
   "IMPLEMENTATION-DATA-TYPE", "IMPLEMENTATION-DATA-TYPE-ELEMENT", "INIT-EVENT",
   "INTERNAL-BEHAVIORS", "INTERNAL-CONSTRS", "INTERNAL-TRIGGER-OCCURRED-EVENT",
   "INTERNAL-TRIGGERING-POINT", "INVALIDATION-POLICY", "MODE-ACCESS-POINT", "MODE-DECLARATION",
   "MODE-DECLARATION-GROUP", "MODE-DECLARATION-GROUP-PROTOTYPE", "MODE-GROUP", "MODE-IREF",
   "MODE-MANAGER-ERROR-BEHAVIOR", "MODE-REQUEST-TYPE-MAP", "MODE-SWITCH-INTERFACE",
   "MODE-SWITCH-POINT", "MODE-SWITCH-RECEIVER-COM-SPEC", "MODE-SWITCH-SENDER-COM-SPEC",
   "MODE-SWITCHED-ACK", "MODE-SWITCHED-ACK-EVENT", "MODE-TRANSITION", "MODE-USER-ERROR-BEHAVIOR",
   "NETWORK-REPRESENTATION", "NONQUEUED-RECEIVER-COM-SPEC", "NONQUEUED-SENDER-COM-SPEC",
   "NOT-AVAILABLE-VALUE-SPECIFICATION", "NUMERICAL-VALUE-SPECIFICATION", "NV-DATA-INTERFACE",
   "NV-PROVIDE-COM-SPEC", "NV-REQUIRE-COM-SPEC", "OPERATION-INVOKED-EVENT", "OPERATION-IREF",
   "P-MODE-GROUP-IN-ATOMIC-SWC-INSTANCE-REF", "P-PORT-IN-COMPOSITION-INSTANCE-REF",
   "P-PORT-PROTOTYPE", "PARAMETER-ACCESS", "PARAMETER-DATA-PROTOTYPE", "PARAMETER-INTERFACE",
   "PARAMETER-PROVIDE-COM-SPEC", "PARAMETER-REQUIRE-COM-SPEC", "PASS-THROUGH-SW-CONNECTOR",
   "PHYS-CONSTRS", "PORT-API-OPTION", "PORT-DEFINED-ARGUMENT-VALUE", "PR-PORT-PROTOTYPE",
   "PROVIDER-IREF", "QUEUED-RECEIVER-COM-SPEC", "QUEUED-SENDER-COM-SPEC",
   "R-MODE-GROUP-IN-ATOMIC-SWC-INSTANCE-REF", "R-PORT-IN-COMPOSITION-INSTANCE-REF",
   "R-PORT-PROTOTYPE", "RECEPTION-PROPS", "RECORD-VALUE-SPECIFICATION", "REPLACE-WITH",
   "REQUESTER-IREF", "REQUIRED-TRIGGER-IREF", "RUNNABLE-ENTITY", "RUNNABLE-ENTITY-ARGUMENT",
   "SCALE-CONSTR", "SENDER-RECEIVER-INTERFACE", "SERVER-COM-SPEC", "SW-ADDR-METHOD",
   "SW-AXIS-CONT", "SW-BASE-TYPE", "SW-BIT-REPRESENTATION", "SW-COMPONENT-PROTOTYPE",
   "SW-DATA-DEF-PROPS", "SW-DATA-DEF-PROPS-CONDITIONAL", "SW-POINTER-TARGET-PROPS",
   "SW-TEXT-PROPS", "SW-VALUE-CONT", "SWC-IMPLEMENTATION", "SWC-INTERNAL-BEHAVIOR",
   "SWC-MODE-MANAGER-ERROR-EVENT", "SWC-MODE-SWITCH-EVENT", "SYMBOL-PROPS",
   "SYNCHRONOUS-SERVER-CALL-POINT", "TEXT-VALUE-SPECIFICATION", "TIMING-EVENT",
   "TRANSFORMER-HARD-ERROR-EVENT", "TRANSMISSION-ACKNOWLEDGE", "TRANSMISSION-PROPS",
   "TRIGGER-IREF", "UNIT", "VARIABLE-ACCESS", "VARIABLE-DATA-PROTOTYPE", "WAIT-POINT"]

/-- Elements that hold a list of other elements: the order of these matters. -/
def listTags : List String :=
  ["ACTIVATION-REASONS", "ANNOTATION-TEXT", "ANNOTATIONS", "AR-PACKAGES", "ARGUMENTS",
   "ARTIFACT-DESCRIPTORS", "ASYNCHRONOUS-SERVER-CALL-RESULT-POINTS", "AUTOSAR",
   "AUTOSAR-VARIABLE-IREF", "CAN-ENTERS", "CODE-DESCRIPTORS", "COMPONENTS", "COMPU-DENOMINATOR",
   "COMPU-NUMERATOR", "COMPU-SCALES", "CONNECTORS", "CONTEXT-DATA-PROTOTYPE-REFS",
   "DATA-CONSTR-RULES", "DATA-ELEMENTS", "DATA-READ-ACCESSS", "DATA-RECEIVE-POINT-BY-ARGUMENTS",
   "DATA-RECEIVE-POINT-BY-VALUES", "DATA-SEND-POINTS", "DATA-TYPE-MAPPING-REFS",
   "DATA-TYPE-MAPS", "DATA-WRITE-ACCESSS", "DESC", "DISABLED-MODE-IREFS", "ELEMENTS", "EVENTS",
   "EXCLUSIVE-AREA-NESTING-ORDER-REFS", "EXCLUSIVE-AREAS", "EXTERNAL-TRIGGERING-POINTS",
   "FIELDS", "INIT-VALUE", "INNER-PORT-IREF", "INTERNAL-TRIGGERING-POINTS", "INTRODUCTION",
   "INVALIDATION-POLICYS", "LABEL", "LONG-NAME", "MODE-ACCESS-POINTS", "MODE-DECLARATIONS",
   "MODE-GROUP-IREF", "MODE-IREFS", "MODE-SWITCH-POINTS", "MODE-TRANSITIONS", "NV-DATAS",
   "OPERATIONS", "P", "PARAMETER-ACCESSS", "PARAMETERS", "PORT-API-OPTIONS", "PORT-ARG-VALUES",
   "PORTS", "POSSIBLE-ERROR-REFS", "POSSIBLE-ERRORS", "PROVIDED-COM-SPECS",
   "RAM-BLOCK-INIT-VALUE", "READ-LOCAL-VARIABLES", "REQUIRED-COM-SPECS", "ROM-BLOCK-INIT-VALUE",
   "RUNNABLES", "RUNS-INSIDES", "SCALE-CONSTRS", "SERVER-CALL-POINTS", "SUB-ELEMENTS",
   "SUPPORTED-FEATURES", "SW-ARRAYSIZE", "SW-AXIS-CONTS", "SW-DATA-DEF-PROPS-VARIANTS",
   "SW-VALUES-PHYS", "TIMEOUT-SUBSTITUTION-VALUE", "TRANSFORMATION-COM-SPEC-PROPSS",
   "VALUE-SPEC", "VERBATIM", "VG", "WAIT-POINTS", "WRITTEN-LOCAL-VARIABLES"]

/-- The elements among the nodes, without the text between them. -/
def elemsOf : List Dom → List Dom
  | [] => []
  | .elem t as ds :: rest => .elem t as ds :: elemsOf rest
  | .text _ :: rest => elemsOf rest

/-- The element has this tag. -/
def hasTag (tag : String) : Dom → Bool
  | .elem t _ _ => t = tag
  | .text _ => false

/-- The first of the nodes that is an element with this tag. -/
def firstElem (tag : String) : List Dom → Option Dom
  | [] => none
  | d :: ds => if hasTag tag d then some d else firstElem tag ds

/-- The tags of children that one statement of a reader method asks for. -/
def askedBy : RItem RM → List String
  | .required t _ | .many t _ _ _ _ => [t]
  | .one t _ (.tag t') _ _ _ => [t, t']
  | .one t _ _ _ _ _ => [t]
  | .choice _ alts _ => alts.map (·.1)
  | .admin => ["ADMIN-DATA"]
  | _ => []

/-- Some reader method asks for children with this tag. -/
def LookedFor (tag : String) : Prop :=
  tag = "ELEMENTS" ∨ tag = "AR-PACKAGES" ∨
  ∃ m t c items, rm m t = .node c items ∧ ∃ i ∈ items, tag ∈ askedBy i

/-- Two files say the same: the parts of an element may come in another order, further parts of
the same tag may follow the first, elements nobody looks for may be anywhere among the parts, and
the white space between elements may be different. -/
inductive Alike : Dom → Dom → Prop
  | refl (d : Dom) : Alike d d
  | record {t : String} {as : Attrs} {ds ds' : List Dom} (ht : t ∈ recordTags)
      (h : ∀ tag, LookedFor tag → ((firstElem tag ds).isSome = (firstElem tag ds').isSome))
      (hp : ∀ tag d d', LookedFor tag → firstElem tag ds = some d → firstElem tag ds' = some d' →
        Alike d d') :
      Alike (.elem t as ds) (.elem t as ds')
  | list {t : String} {as : Attrs} {ds ds' : List Dom} (ht : t ∈ listTags)
      (h : (elemsOf ds).length = (elemsOf ds').length)
      (hp : ∀ (i : Nat) (d d' : Dom), (elemsOf ds)[i]? = some d → (elemsOf ds')[i]? = some d' → Alike d d') :
      Alike (.elem t as ds) (.elem t as ds')

end Verif.Codec
