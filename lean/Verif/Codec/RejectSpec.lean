import Verif.Codec.OrderSpec
import Verif.Codec.PatternSpec
/-
When the parts of an element can be read, but not the element.
-/
namespace Verif.Codec.Spec
open Verif.Py Verif.Num Verif.Xml Verif.Xml.Spec

/-- Objects of the class are identifiable: they may have a UUID. -/
def identifiable (c : Cls) : Bool := (Schema.ctor c).any fun f => f.attr = "uuid"

/-- The parts of the elements of each class that are read, but rejected by the constructor. -/
def rejected (c : Cls) : List String :=
  (if identifiable c then ["INTRODUCTION", "ANNOTATIONS"] else []) ++
  match c with
  | .SymbolProps | .ExecutableEntityActivationReason => ["LONG-NAME"]
  | .ModeDeclaration => ["IS-SERVICE"]
  | .SwComponentPrototype => ["PORTS"]
  | .ModeAccessPointIdent => ["ASYNCHRONOUS-SERVER-CALL-POINT-REF"]
  | .ReceptionComSpecProps =>
    ["DATA-ELEMENT-REF", "HANDLE-OUT-OF-RANGE", "HANDLE-OUT-OF-RANGE-STATUS",
     "MAX-DELTA-COUNTER-INIT", "MAX-NO-NEW-OR-REPEATED-DATA", "NETWORK-REPRESENTATION",
     "RECEPTION-PROPS", "REPLACE-WITH", "SYNC-COUNTER-INIT", "TRANSFORMATION-COM-SPEC-PROPSS",
     "USES-END-TO-END-PROTECTION"]
  | _ => []

/-- The arguments that may not be negative although any integer is read for them. -/
def sizes : List String := ["array_size", "max_number_of_elements"]

/-- The class of the objects that a reader method makes. -/
def objClass (m : RM) (tag : String) : Option Cls :=
  match rm m tag with
  | .node c _ | .mixed c _ _ _ _ => some c
  | _ => none

/-- What a reader method finds in an element: the arguments for the constructor, or what is raised
while the parts are read. -/
def gather (m : RM) : Dom → Except PyErr (Data Cls)
  | .elem t as ds =>
    let kids := rdenKids tables ds
    let text := leadText ds
    match rm m t with
    | .node _ items => collect (items.map (readItem as text kids))
    | .mixed _ items key tags skipped =>
      match collect (items.map (readItem as text kids)) with
      | .error e => .error e
      | .ok data =>
        match collect (kids.map (readPart text tags skipped)) with
        | .error e => .error e
        | .ok vs => .ok (data ++ [(key, some (.list ((match text with
          | some t => [.str t]
          | none => []) ++ vs)))])
    | _ => .error .notImplemented
  | .text _ => .error .attributeError

/-- The object with these arguments as attributes. -/
def made (c : Cls) (data : Data Cls) : Val Cls :=
  .obj c ((Schema.ctor c).filterMap fun f =>
    (normal ((lastOf data f.param).getD none)).map fun v => (f.attr, v))

/-- A mandatory argument is missing. -/
def incomplete (c : Cls) (data : Data Cls) : Prop :=
  ∃ f ∈ Schema.ctor c, f.req = true ∧ lastOf data f.param = none

/-- One of the sizes is negative. -/
def negativeSize (c : Cls) (data : Data Cls) : Prop :=
  ∃ f ∈ Schema.ctor c, f.param ∈ sizes ∧
    ∃ i : Int, i < 0 ∧ lastOf data f.param = some (some (.num (.int i)))

/-- The alignment is neither a number nor one of the known words. -/
def badAlignment (c : Cls) (data : Data Cls) : Prop :=
  c = .SwDataDefPropsConditional ∧
    ∃ s, lastOf data "alignment" = some (some (.str s)) ∧ ¬ alignmentRx.Begins s.toList

/-- The display format is not one of `printf`. -/
def badFormat (c : Cls) (data : Data Cls) : Prop :=
  c = .SwDataDefPropsConditional ∧
    ∃ s, lastOf data "display_format" = some (some (.str s)) ∧ ¬ formatRx.Begins s.toList

/-- One of the arguments has a value that is not accepted. -/
def unaccepted (c : Cls) (data : Data Cls) : Prop :=
  negativeSize c data ∨ badAlignment c data ∨ badFormat c data

/-! ### Administrative data -/

/-- A special data group as the reader expects it: it has an identifier and data with an
identifier. -/
def groupOk : Dom → Bool
  | .elem _ as ds => (as.any fun a => a.1 = "GID") &&
    match firstElem "SD" ds with
    | some (.elem _ as' _) => as'.any fun a => a.1 = "GID"
    | _ => false
  | .text _ => true

/-- Administrative data as the reader expects it: special data groups, and nothing else needs to be
there. -/
def adminOk (ds : List Dom) : Bool :=
  match firstElem "SDGS" ds with
  | some (.elem _ _ groups) => groups.all fun d => !hasTag "SDG" d || groupOk d
  | _ => false

end Verif.Codec.Spec
