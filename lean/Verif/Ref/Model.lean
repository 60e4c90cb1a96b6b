import Verif.Py
import Verif.Ref.Tables
import Verif.Enums.Tables
/-
`BaseRef`, the attribute assignment helpers of `ARObject` (src/autosar/xml/base.py) and
`split_ref` / `split_ref_strict` (src/autosar/base.py).
-/
namespace Verif.Ref
open Verif.Py

/-- A reference object: its class, `value` and `dest` (base.py 172-187).
`value` is stored unchecked by the code; strings only here. -/
structure RefObj where
  cls : String
  value : String
  dest : String
deriving DecidableEq, Repr

/-- Python values as far as the assignment helpers distinguish them. `other` is any object
that is none of the listed kinds, `tag` its class. Floats are opaque. -/
inductive PyVal where
  | none
  | bool (b : Bool)
  | int (i : Int)
  | float (repr : String)
  | str (s : String)
  | enum (cls member : String)
  | ref (r : RefObj)
  | other (tag : String)
deriving DecidableEq, Repr

/-- The `dest` argument of a reference constructor: left out, or some value. -/
inductive DestArg where
  | omitted
  | given (v : PyVal)
deriving DecidableEq, Repr

/-- `dest in self.accepted_sub_types()`: only members of `IdentifiableSubTypes` can be. -/
def destIn (accepted : List String) : PyVal → Option String
  | .enum "IdentifiableSubTypes" m => if m ∈ accepted then some m else Option.none
  | _ => Option.none

/-- The final check of `BaseRef.__init__` (xml/base.py 183-186). -/
def checkDest (cn : String) (accepted : List String) (value : String) (d : PyVal) :
    Except PyErr RefObj :=
  match destIn accepted d with
  | some m => .ok ⟨cn, value, m⟩
  | Option.none => .error .valueError

/-- `BaseRef.__init__` (xml/base.py 172-187).  With `dest` None and several accepted
destinations the code means to raise ValueError, but building the message sorts a list of
plain `Enum` members, which are not orderable, so `TypeError` comes out (line 181); with
no accepted destination at all the sort succeeds. -/
def baseInit (cn : String) (accepted : List String) (value : String) (dest : PyVal) :
    Except PyErr RefObj :=
  match dest with
  | .none =>
    match accepted with
    | [d] => checkDest cn accepted value (.enum "IdentifiableSubTypes" d)
    | [] => .error .valueError
    | _ => .error .typeError
  | d => checkDest cn accepted value d

/-- `RefClass(value, dest)`: the class's own `__init__` only supplies the default and calls
the base (reference.py, every class). -/
def construct (cn : String) (value : String) (dest : DestArg) : Except PyErr RefObj :=
  match dictGet refClasses cn with
  | Option.none => .error .attributeError
  | some rc =>
    match dest with
    | .given d => baseInit cn rc.accepted value d
    | .omitted =>
      match rc.default with
      | some m => baseInit cn rc.accepted value (.enum "IdentifiableSubTypes" m)
      | Option.none => baseInit cn rc.accepted value .none

/-- The type argument of `_assign`. -/
inductive TypeArg where
  | enumClass (cls : String)
  | refClass (cls : String)
  /-- `bool`, `int`, `str`, `float` -/
  | builtin (name : String)
  | otherClass (name : String)
deriving DecidableEq, Repr

/-- The value `_check_and_set_reference` stores, or the exception it raises
(xml/base.py 112-133).  `ref_type(value, x)` is a constructor call and checks again. -/
def checkReference (cn : String) (v : PyVal) : Except PyErr RefObj :=
  match dictGet refClasses cn with
  | Option.none => .error .runtimeError
  | some rc =>
    if rc.accepted.length = 0 then .error .runtimeError
    else
      match v with
      | .str s =>
        match rc.accepted with
        | [d] => construct cn s (.given (.enum "IdentifiableSubTypes" d))
        | _ => .error .typeError
      | .ref r =>
        if r.cls = cn ∨ r.dest ∈ rc.accepted then
          construct cn r.value (.given (.enum "IdentifiableSubTypes" r.dest))
        else .error .typeError
      | _ => .error .typeError

/-- The attributes of an object (`vars(obj)`). -/
abbrev Attrs := String → PyVal

/-- `setattr(self, attr_name, value)`. -/
def setAttr (o : Attrs) (a : String) (v : PyVal) : Attrs := fun x => if x = a then v else o x

/-- State and outcome of an assignment call. -/
abbrev Outcome := Attrs × Except PyErr Unit

/-- `_check_and_set_reference` (xml/base.py 112-134): the store happens last. -/
def checkAndSetReference (o : Attrs) (a : String) (v : PyVal) (cn : String) : Outcome :=
  match checkReference cn v with
  | .error e => (o, .error e)
  | .ok r => (setAttr o a (.ref r), .ok ())

/-- `isinstance(value, type_class)` for an `Enum` class. -/
def isEnumInstance (cn : String) : PyVal → Bool
  | .enum c _ => c = cn
  | _ => false

/-- `_set_attr_with_strict_type` for `Enum` classes (xml/base.py 102-110). -/
def setStrictEnum (o : Attrs) (a : String) (v : PyVal) (cn : String) : Outcome :=
  if isEnumInstance cn v then (setAttr o a v, .ok ()) else (o, .error .typeError)

/-- `_set_attr_with_type_cast` (xml/base.py 136-144).  The built-in constructors themselves
(`bool(v)`, `int(v)`, `str(v)`, `float(v)`) are the parameter `cast`. -/
def setCast (cast : String → PyVal → Except PyErr PyVal) (o : Attrs) (a : String) (v : PyVal)
    (t : TypeArg) : Outcome :=
  match t with
  | .builtin n =>
    match cast n v with
    | .ok w => (setAttr o a w, .ok ())
    | .error e => (o, .error e)
  | _ => (o, .error .notImplemented)

/-- `_assign` (xml/base.py 55-64). -/
def assign (cast : String → PyVal → Except PyErr PyVal) (o : Attrs) (a : String) (v : PyVal)
    (t : TypeArg) : Outcome :=
  match t with
  | .enumClass cn => setStrictEnum o a v cn
  | .refClass cn => checkAndSetReference o a v cn
  | t => setCast cast o a v t

/-- `_assign_optional` (xml/base.py 48-53). -/
def assignOptional (cast : String → PyVal → Except PyErr PyVal) (o : Attrs) (a : String)
    (v : PyVal) (t : TypeArg) : Outcome :=
  if v = .none then (o, .ok ()) else assign cast o a v t

/-- `isinstance(value, int)`: `bool` is a subclass of `int`. -/
def asInt : PyVal → Option Int
  | .int i => some i
  | .bool b => some (if b then 1 else 0)
  | _ => Option.none

/-- `_set_attr_positive_int` (xml/base.py 146-154). -/
def setPositiveInt (o : Attrs) (a : String) (v : PyVal) : Outcome :=
  match asInt v with
  | Option.none => (o, .error .typeError)
  | some i => if i < 0 then (o, .error .valueError) else (setAttr o a v, .ok ())

/-- `_assign_optional_positive_int` (xml/base.py 95-100). -/
def assignOptionalPositiveInt (o : Attrs) (a : String) (v : PyVal) : Outcome :=
  if v = .none then (o, .ok ()) else setPositiveInt o a v

/-- `_assign_int_or_str_pattern` (xml/base.py 73-86); `pattern` is `pattern.match(v) is not None`. -/
def assignIntOrPattern (pattern : String → Bool) (o : Attrs) (a : String) (v : PyVal) : Outcome :=
  match v with
  | .str s => if pattern s then (setAttr o a v, .ok ()) else (o, .error .valueError)
  | v => match asInt v with
    | some _ => (setAttr o a v, .ok ())
    | Option.none => (o, .error .typeError)

/-- `PortPrototypeRef.is_provide_port_ref` (reference.py 396-403). -/
def isProvidePortRef (r : RefObj) : Bool :=
  r.dest ∈ ["ABSTRACT_PROVIDED_PORT_PROTOTYPE", "P_PORT_PROTOTYPE", "PR_PORT_PROTOTYPE"]

/-- `PortPrototypeRef.is_require_port_ref` (reference.py 406-413). -/
def isRequirePortRef (r : RefObj) : Bool :=
  r.dest ∈ ["ABSTRACT_REQUIRED_PORT_PROTOTYPE", "R_PORT_PROTOTYPE", "PR_PORT_PROTOTYPE"]

/-- `split_ref` (base.py 8-13): `none` is the Python `None`; `ref[0]` on the empty string
raises IndexError. -/
def splitRef : PyVal → Except PyErr (Option (List (List Char)))
  | .str s =>
    match s.toList with
    | [] => .error .indexError
    | c :: cs => if c = '/' then .ok (some (splitL '/' cs)) else .ok (some (splitL '/' (c :: cs)))
  | _ => .ok Option.none

/-- `split_ref_strict` (base.py 16-25). -/
def splitRefStrict : PyVal → Except PyErr (List (List Char))
  | .str s =>
    match s.toList with
    | [] => .error .valueError
    | c :: cs => if c = '/' then .error .valueError else .ok (splitL '/' (c :: cs))
  | _ => .error .typeError

/-! ### Objects over their life

Attribute writes an object can see: the constructor's assignment helpers, called on
attribute names fixed by the class.  A class is described by which helper each attribute
goes through. -/

/-- How an attribute is assigned by its class. -/
inductive Guard where
  | positive
  | typed (t : TypeArg)
  | pattern (p : String → Bool)

/-- One call of the assignment helper that belongs to the attribute (`_assign_optional*`). -/
def guardedAssign (cast : String → PyVal → Except PyErr PyVal) (o : Attrs) (a : String)
    (v : PyVal) : Guard → Outcome
  | .positive => assignOptionalPositiveInt o a v
  | .typed t => assignOptional cast o a v t
  | .pattern p => if v = .none then (o, .ok ()) else assignIntOrPattern p o a v

/-- A sequence of assignments; a rejected one raises, and the program may go on. -/
def runAssigns (cast : String → PyVal → Except PyErr PyVal) (cls : String → Guard) :
    Attrs → List (String × PyVal) → Attrs
  | o, [] => o
  | o, (a, v) :: rest => runAssigns cast cls (guardedAssign cast o a v (cls a)).1 rest

/-! ### Behaviour settings -/

/-- The attributes `BehaviorSettings.__init__` creates (element.py 2949-2975). -/
def settingNames : List String :=
  ["background_event_prefix", "data_receive_error_event_prefix", "data_receive_event_prefix",
   "init_event_prefix", "operation_invoked_event_prefix", "swc_mode_manager_error_event_prefix",
   "swc_mode_switch_event_prefix", "timing_event_prefix", "data_read_access_prefix",
   "data_receive_point_prefix", "data_send_point_prefix", "data_write_access_prefix",
   "external_triggering_point_prefix", "internal_triggering_point_prefix",
   "mode_access_point_prefix", "mode_switch_point_prefix", "parameter_access_prefix",
   "read_local_variable_prefix", "server_call_point_prefix", "wait_point_prefix",
   "write_local_variable_prefix"]

/-- The methods of the class; `hasattr` is true for them as well.  (Names with double
underscores inherited from `object` are outside the model.) -/
def methodNames : List String := ["set_value", "update", "set_default", "get_value"]

/-- Instance attributes of a `BehaviorSettings` object: name ↦ `None` or a string. -/
abbrev Settings := String → Option (Option String)

/-- `BehaviorSettings.__init__` (element.py 2949-2975). -/
def Settings.init : Settings := fun n => if n ∈ settingNames then some none else none

/-- `hasattr(self, name)`. -/
def Settings.hasAttr (s : Settings) (n : String) : Bool :=
  (s n).isSome || decide (n ∈ methodNames)

/-- Calling the method `m`: a string stored under the method's name hides the method, and
calling a string raises TypeError. -/
def Settings.callable (s : Settings) (m : String) : Bool := (s m).isNone

/-- The body of `BehaviorSettings.set_value` (element.py 2977-2986). -/
def Settings.setValue (s : Settings) (name : String) (v : PyVal) : Settings × Except PyErr Unit :=
  if s.callable "set_value" = false then (s, .error .typeError)
  else if s.hasAttr name then
    match v with
    | .str t => ((fun n => if n = name then some (some t) else s n), .ok ())
    | _ => (s, .error .typeError)
  else (s, .error .keyError)

/-- The loop of `BehaviorSettings.update` (element.py 2988-2993). -/
def Settings.updateLoop (s : Settings) : List (String × PyVal) → Settings × Except PyErr Unit
  | [] => (s, .ok ())
  | (n, v) :: rest =>
    match s.setValue n v with
    | (s', .ok ()) => s'.updateLoop rest
    | (s', .error e) => (s', .error e)

/-- `settings.update(value_map)` (element.py 2988-2993). -/
def Settings.update (s : Settings) (m : List (String × PyVal)) : Settings × Except PyErr Unit :=
  if s.callable "update" = false then (s, .error .typeError) else s.updateLoop m

/-- `BehaviorSettings.get_value` (element.py 3000-3007). -/
def Settings.getValue (s : Settings) (name : String) : Except PyErr (Option String) :=
  if s.callable "get_value" = false then .error .typeError
  else match s name with
    | some (some t) => .ok (some t)
    | some none => .error .valueError
    | none => if name ∈ methodNames then .ok none else .error .attributeError

/-- Calls on a settings object. -/
inductive SettingsCall where
  | setValue (name : String) (v : PyVal)
  | update (m : List (String × PyVal))

/-- One call. -/
def Settings.call (s : Settings) : SettingsCall → Settings × Except PyErr Unit
  | .setValue n v => s.setValue n v
  | .update m => s.update m

/-- A history of calls; exceptions are caught by the caller, who goes on. -/
def Settings.run (s : Settings) : List SettingsCall → Settings
  | [] => s
  | c :: cs => Settings.run (s.call c).1 cs

end Verif.Ref
