import Verif.Codec.AppendSpec
import Verif.Codec.Create
/-
What the methods that create parts are for (C62): the class of the part, the argument of the owner's
constructor the part belongs to, and the arguments in order.
-/
namespace Verif.Codec.CreateSpec
open Verif.Py Verif.Names Verif.Codec Verif.Codec.AppendSpec Verif.Enums

/-- A method that makes a part. -/
structure Maker where
  method : String
  /-- names of the arguments, in order -/
  params : List String
  /-- class of the part -/
  part : Cls
  /-- arguments of the part's constructor that the method itself supplies -/
  fixed : List (String × Member)
  /-- argument of the owner's constructor -/
  owner : String
  /-- that argument is a list -/
  many : Bool

/-- The direction of an argument of an operation. -/
def dir (m : String) : List (String × Member) := [("direction", ⟨"ArgumentDirection", m⟩)]

/-- The method of compositions. -/
def prototypes : Maker :=
  ⟨"create_component_prototype", ["name", "type_ref"], .SwComponentPrototype, [], "components", true⟩

/-- The method of component types. -/
def behaviors : Maker :=
  ⟨"create_internal_behavior", ["name"], .SwcInternalBehavior, [], "internal_behavior", false⟩

/-- The methods that make parts. -/
def makers : Cls → List Maker
  | .ModeDeclarationGroup =>
    [⟨"create_mode_declaration", ["name", "value"], .ModeDeclaration, [], "mode_declarations", true⟩]
  | .SenderReceiverInterface | .NvDataInterface =>
    [⟨"create_data_element", ["name", "init_value"], .VariableDataPrototype, [], "data_elements", true⟩]
  | .ParameterInterface =>
    [⟨"create_parameter", ["name", "init_value"], .ParameterDataPrototype, [], "parameters", true⟩]
  | .ClientServerOperation =>
    [⟨"create_argument", ["name", "direction", "server_arg_impl_policy"], .ArgumentDataPrototype, [],
      "arguments", true⟩,
     ⟨"create_in_argument", ["name", "server_arg_impl_policy"], .ArgumentDataPrototype, dir "IN",
      "arguments", true⟩,
     ⟨"create_inout_argument", ["name", "server_arg_impl_policy"], .ArgumentDataPrototype, dir "INOUT",
      "arguments", true⟩,
     ⟨"create_out_argument", ["name", "server_arg_impl_policy"], .ArgumentDataPrototype, dir "OUT",
      "arguments", true⟩]
  | .ClientServerInterface =>
    [⟨"create_operation",
      ["name", "arguments", "diag_arg_integrity", "fire_and_forget", "possible_error_refs"],
      .ClientServerOperation, [], "operations", true⟩,
     ⟨"create_possible_error", ["name", "error_code"], .ApplicationError, [], "possible_errors", true⟩]
  | .ModeSwitchInterface =>
    [⟨"create_mode_group", ["name", "type_ref", "calibration_access"], .ModeDeclarationGroupPrototype, [],
      "mode_group", false⟩]
  | .SwcInternalBehavior =>
    [⟨"create_exclusive_area", ["name"], .ExclusiveArea, [], "exclusive_areas", true⟩]
  | .CompositionSwComponentType =>
    [prototypes]
  | .ApplicationSoftwareComponentType =>
    [behaviors]
  | _ => []

/-- The arguments of the part by name: those given by position, those given by name, those the method
supplies. -/
def Maker.named (r : Maker) (pos : List (Option (Val Cls))) (kw : Data Cls) : Data Cls :=
  r.params.zip pos ++ kw ++ r.fixed.map fun e => (e.1, some (.enum e.2))

/-- A call Python accepts: not too many arguments, none of them twice, and a name. -/
structure Maker.Call (r : Maker) (pos : List (Option (Val Cls))) (kw : Data Cls) : Prop where
  fewEnough : pos.length ≤ r.params.length
  distinct : ((r.named pos kw).map Prod.fst).Nodup
  named : "name" ∈ (r.named pos kw).map Prod.fst

/-- The arguments of the owner with one more part, or another one. -/
def Maker.added (r : Maker) (data : Data Cls) (x : Val Cls) : Data Cls :=
  data ++ [(r.owner, some (if r.many then .list (given data r.owner ++ [x]) else x))]

/-- What is left after a call: the owner that its constructor makes of its arguments and the part, and
the part that the part's constructor makes of these arguments; or what the part's constructor raises. -/
def Maker.Outcome (r : Maker) (D : Digits) (c : Cls) (data args : Data Cls)
    (result : Option (Except PyErr (Val Cls × Val Cls))) : Prop :=
  (∃ x o', Append.construct D r.part args = some (.ok x) ∧
    Append.construct D c (r.added data x) = some (.ok o') ∧ result = some (.ok (o', x))) ∨
  (∃ e, Append.construct D r.part args = some (.error e) ∧ result = some (.error e))

/-- The data element that an argument means: a path, or a reference to a data element. -/
def dataElement : Option (Val Cls) → Option Verif.Ref.RefObj
  | some (.str s) => some ⟨"VariableDataPrototypeRef", s, "VARIABLE_DATA_PROTOTYPE"⟩
  | some (.ref r) => if r.cls = "VariableDataPrototypeRef" then some r else none
  | _ => none

/-- What is done with values of data elements that are invalid. -/
def handling : Option (Val Cls) → Option Member
  | some (.enum m) => if m.cls = "HandleInvalid" then some m else none
  | _ => none

end Verif.Codec.CreateSpec
