import Verif.Codec.Append
/-
The `create_*` methods that make a part of an element and add it (src/autosar/xml/element.py; all line
numbers are of that file).  Those of packages, ports, runnables, events, connectors and port API options
are in Verif/Pkg and Verif/Swc.  Left out, as in Codec/Schema.lean: the argument `admin_data` of
`Identifiable`.
-/
namespace Verif.Codec.Create
open Verif.Py Verif.Names Verif.Codec Verif.Codec.Append Verif.Ref Verif.Enums

/-- Where a positional argument of a constructor comes from. -/
inductive From where
  /-- an argument of the method -/
  | arg (p : String)
  /-- a member of an enumeration -/
  | const (m : Member)
deriving DecidableEq

/-- What is done with the object made. -/
inductive Put where
  /-- `self.append_*(obj)` -/
  | append (m : String)
  /-- `self.attr = obj` -/
  | set (a : String)
deriving DecidableEq

/-- A `create_*` method: its parameters, the class it calls, with which positional arguments (followed by
`**kwargs`), and what it does with the object.  `name` has no default, the others have None. -/
structure Row where
  method : String
  params : List String
  cls : Cls
  positional : List From
  put : Put

/-- An argument `direction`. -/
def direction (m : String) : From := .const ⟨"ArgumentDirection", m⟩

/-- The methods of each class.  For compositions and component types: what is left of
`create_component_prototype` and `create_internal_behavior` when the name has been settled. -/
def rows : Cls → List Row
  | .ModeDeclarationGroup =>
    [⟨"create_mode_declaration", ["name", "value"], .ModeDeclaration, [.arg "name", .arg "value"],
      .append "append_mode_declaratation"⟩] -- 3250-3261
  | .SenderReceiverInterface =>
    [⟨"create_data_element", ["name", "init_value"], .VariableDataPrototype,
      [.arg "name", .arg "init_value"], .append "append_data_element"⟩] -- 3435-3446
  | .NvDataInterface =>
    [⟨"create_data_element", ["name", "init_value"], .VariableDataPrototype,
      [.arg "name", .arg "init_value"], .append "append_data_element"⟩] -- 3512-3523
  | .ParameterInterface =>
    [⟨"create_parameter", ["name", "init_value"], .ParameterDataPrototype,
      [.arg "name", .arg "init_value"], .append "append_parameter"⟩] -- 3569-3580
  | .ClientServerOperation =>
    [⟨"create_argument", ["name", "direction", "server_arg_impl_policy"], .ArgumentDataPrototype,
      [.arg "name", .arg "direction", .arg "server_arg_impl_policy"],
      .append "append_argument"⟩, -- 3677-3689
     ⟨"create_in_argument", ["name", "server_arg_impl_policy"], .ArgumentDataPrototype,
      [.arg "name", direction "IN", .arg "server_arg_impl_policy"],
      .append "append_argument"⟩, -- 3691-3702
     ⟨"create_inout_argument", ["name", "server_arg_impl_policy"], .ArgumentDataPrototype,
      [.arg "name", direction "INOUT", .arg "server_arg_impl_policy"],
      .append "append_argument"⟩, -- 3704-3715
     ⟨"create_out_argument", ["name", "server_arg_impl_policy"], .ArgumentDataPrototype,
      [.arg "name", direction "OUT", .arg "server_arg_impl_policy"],
      .append "append_argument"⟩] -- 3717-3728
  | .ClientServerInterface =>
    [⟨"create_operation",
      ["name", "arguments", "diag_arg_integrity", "fire_and_forget", "possible_error_refs"],
      .ClientServerOperation, [.arg "name", .arg "arguments", .arg "diag_arg_integrity",
        .arg "fire_and_forget", .arg "possible_error_refs"], .append "append_operation"⟩, -- 3818-3833
     ⟨"create_possible_error", ["name", "error_code"], .ApplicationError,
      [.arg "name", .arg "error_code"], .append "append_possible_errors"⟩] -- 3835-3846
  | .ModeSwitchInterface =>
    [⟨"create_mode_group", ["name", "type_ref", "calibration_access"], .ModeDeclarationGroupPrototype,
      [.arg "name", .arg "type_ref", .arg "calibration_access"], .set "mode_group"⟩] -- 3875-3890
  | .SwcInternalBehavior =>
    [⟨"create_exclusive_area", ["name"], .ExclusiveArea, [.arg "name"],
      .append "append_exclusive_area"⟩] -- 7842-7850
  | .CompositionSwComponentType =>
    [⟨"create_component_prototype", ["name", "type_ref"], .SwComponentPrototype,
      [.arg "name", .arg "type_ref"], .append "append_component"⟩] -- 5418-5420
  | .ApplicationSoftwareComponentType =>
    [⟨"create_internal_behavior", ["name"], .SwcInternalBehavior, [.arg "name"],
      .set "internal_behavior"⟩] -- 5180-5182
  | _ => []

/-- The positional parameters of the constructors called (2045-2048, 2078-2081, 2102-2106, 3116-3119,
3290-3294, 3589-3592, 3617-3623, 5210-5213, 7883-7888; `Identifiable` 231-237 for `ExclusiveArea`). -/
def signature : Cls → List String
  | .VariableDataPrototype => ["name", "init_value"]
  | .ParameterDataPrototype => ["name", "init_value"]
  | .ArgumentDataPrototype => ["name", "direction", "server_arg_impl_policy"]
  | .ModeDeclaration => ["name", "value"]
  | .ModeDeclarationGroupPrototype => ["name", "type_ref", "calibration_access"]
  | .ApplicationError => ["name", "error_code"]
  | .ClientServerOperation =>
    ["name", "arguments", "diag_arg_integrity", "fire_and_forget", "possible_error_refs"]
  | .SwComponentPrototype => ["name", "type_ref"]
  | .SwcInternalBehavior => ["name", "events", "runnables", "port_api_options"]
  | .ExclusiveArea => ["name", "desc", "category", "uuid", "admin_data"]
  | _ => []

/-- The arguments of a call, by position and by keyword: those for parameters, and `**kwargs`.  TypeError
if there are too many, or one is given twice, or `name` is missing. -/
def bindArgs (params : List String) (pos : List (Option (Val Cls))) (kw : Data Cls) :
    Except PyErr (Data Cls × Data Cls) :=
  if params.length < pos.length then .error .typeError
  else if kw.any fun kv => kv.1 ∈ params.take pos.length then .error .typeError
  else
    let bound := params.zip pos ++ kw.filter fun kv => kv.1 ∈ params
    if (lastOf bound "name").isNone then .error .typeError
    else .ok (bound, kw.filter fun kv => kv.1 ∉ params)

/-- The value of a positional argument. -/
def From.value (bound : Data Cls) : From → Option (Val Cls)
  | .arg p => (lastOf bound p).getD none
  | .const m => some (.enum m)

/-- `cls(*values, **rest)`. -/
def callInit (D : Digits) (c : Cls) (values : List (Option (Val Cls))) (rest : Data Cls) :
    Option (Except PyErr (Val Cls)) :=
  if rest.any fun kv => kv.1 ∈ (signature c).take values.length then some (.error .typeError)
  else Append.construct D c ((signature c).zip values ++ rest)

/-- What is done with the object made. -/
def Put.run (D : Digits) (o x : Val Cls) : Put → Option (Except PyErr (Val Cls))
  | .append m => add D o m x
  | .set a =>
    match o with
    | .obj c fs =>
      some (.ok (.obj c (canon (Schema.ctor c) fun f => if f.attr = a then some x else dictGet fs f.attr)))
    | _ => some (.error .attributeError)

/-- `o.create_*(*pos, **kw)`: the object afterwards, and what is returned. -/
def create (D : Digits) (o : Val Cls) (m : String) (pos : List (Option (Val Cls))) (kw : Data Cls) :
    Option (Except PyErr (Val Cls × Val Cls)) :=
  match o with
  | .obj c _ =>
    match (rows c).find? fun r => r.method = m with
    | none => some (.error .attributeError)
    | some r =>
      match bindArgs r.params pos kw with
      | .error e => some (.error e)
      | .ok (bound, rest) =>
        match callInit D r.cls (r.positional.map (From.value bound)) rest with
        | none => none
        | some (.error e) => some (.error e)
        | some (.ok x) => (r.put.run D o x).map fun r => r.map fun o' => (o', x)
  | _ => some (.error .attributeError)

/-- `create_component_prototype` (5404-5420): `type` is the name of the component type and what its
`ref()` returns. -/
def createPrototype (D : Digits) (o : Val Cls) (type : String × Option RefObj)
    (name : Option String) (kw : Data Cls) : Option (Except PyErr (Val Cls × Val Cls)) :=
  create D o "create_component_prototype"
    [some (.str (match name with | none => type.1 | some n => n)), type.2.map .ref] kw

/-- `create_internal_behavior` (5170-5182). -/
def createBehavior (D : Digits) (o : Val Cls) (name : Option String) (kw : Data Cls) :
    Option (Except PyErr (Val Cls × Val Cls)) :=
  match name, o with
  | some n, _ => create D o "create_internal_behavior" [some (.str n)] kw
  | none, .obj _ fs =>
    match dictGet fs "name" with
    | some (.str s) => create D o "create_internal_behavior" [some (.str (s ++ "_InternalBehavior"))] kw
    | _ => some (.error .typeError)
  | none, _ => some (.error .attributeError)

/-- `create_possible_error_ref` (3740-3748); `ApplicationErrorRef` has one destination. -/
def createErrorRef (D : Digits) (o : Val Cls) (value : String) :
    Option (Except PyErr (Val Cls × Val Cls)) :=
  match Verif.Ref.construct "ApplicationErrorRef" value .omitted with
  | .error e => some (.error e)
  | .ok r => (add D o "append_possible_error_ref" (.ref r)).map fun q => q.map fun o' => (o', .ref r)

/-- `create_invalidation_policy`, the data element (3456-3460). -/
def policyRef : Option (Val Cls) → Except PyErr RefObj
  | some (.str s) => Verif.Ref.construct "VariableDataPrototypeRef" s .omitted
  | some (.ref r) => if r.cls = "VariableDataPrototypeRef" then .ok r else .error .typeError
  | _ => .error .typeError

/-- `create_invalidation_policy`, how to handle it (3461-3463). -/
def policyHandle : Option (Val Cls) → Except PyErr Member
  | some (.enum h) => if h.cls = "HandleInvalid" then .ok h else .error .typeError
  | _ => .error .typeError

/-- `create_invalidation_policy` (3448-3466). -/
def createPolicy (D : Digits) (o : Val Cls) (ref handle : Option (Val Cls)) :
    Option (Except PyErr (Val Cls × Val Cls)) :=
  match policyRef ref with
  | .error e => some (.error e)
  | .ok r =>
    match policyHandle handle with
    | .error e => some (.error e)
    | .ok h =>
      match Append.construct D .InvalidationPolicy
          [("data_element_ref", some (.ref r)), ("handle_invalid", some (.enum h))] with
      | none => none
      | some (.error e) => some (.error e)
      | some (.ok x) => (add D o "append_invalidation_policy" x).map fun q => q.map fun o' => (o', x)

end Verif.Codec.Create
