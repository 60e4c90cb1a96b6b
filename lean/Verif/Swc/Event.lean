import Verif.Swc.Access
import Verif.Names.Model
import Verif.Num.Limits
/-
The events of a component's behaviour: `create_*_event` of `SwcInternalBehavior`
(src/autosar/xml/element.py 8051-8475).
-/
namespace Verif.Swc
open Verif.Py Verif.Ref
open Verif.Names (Name Digits makeUnique)
open Verif.Num (PyNum toFloat)

/-- A runnable: name and text of its `ref()`, which is `None` outside packages (element.py
6607-6613). -/
structure Run where
  name : String
  ref : Option String
deriving DecidableEq, Repr

/-- A data element, operation or mode: name and text of its `ref()`. -/
structure Elem where
  name : String
  ref : String
deriving DecidableEq, Repr

/-- What `find` looks through in a mode declaration group (element.py 3227-3237): the modes with the
texts of their `ref()`, and the names of the transitions, which have no `ref`. -/
structure ModeItems where
  modes : List Elem
  transitions : List String
deriving DecidableEq, Repr

/-- The mode group of an interface: name, text of `ref()` (element.py 3301-3307; `None` if the group
has no parent, which only `create_mode_group` gives it, 3889, not the constructor of the interface,
3863), and the outcome of following its type reference (element.py 8469-8472, 3038-3053).  Simplification: what the reference leads to is a mode
declaration group. -/
structure ModeProto where
  name : String
  ref : Option String
  type : Except PyErr ModeItems

/-- Port interfaces as distinguished at element.py 5078, 5105, 5131. -/
inductive EvIface where
  | senderReceiver (l : List Elem)
  | clientServer (l : List Elem)
  | modeSwitch (group : Option ModeProto)
  | other

/-- A port of the component: name, class, text of `ref()`, and the outcome of following its
interface reference (element.py 5075-5077, 5102-5104, 5128-5130). -/
structure EvPort where
  name : String
  kind : PortKind
  ref : String
  iface : Except PyErr EvIface

/-- The component a behaviour belongs to: its ports and its `root_collection()` (element.py
194-205), of which only the behaviour settings matter (`none` in a collection that is no
workspace). -/
structure EvComp where
  ports : List EvPort
  root : Option (Option Settings)

/-- The event classes that are created (element.py 7184, 7202, 7245, 7382, 7454, 7502, 7542, 7608). -/
inductive EventKind where
  | background | dataReceiveError | dataReceived | init | operationInvoked | modeManagerError
  | modeSwitch | timing
deriving DecidableEq, Repr

/-- What an event refers to besides its runnable (texts of references): port and data element
(element.py 7231), port and operation (7483), port and mode group (7528), ports, groups and modes
with the activation (7592-7594), period and offset (7626-7627).  Ports, elements, operations and
modes have the references `Elem` and `EvPort` say; mode groups may have none. -/
inductive EvTarget where
  | nothing
  | data (port elem : String)
  | operation (port op : String)
  | modeGroup (port : String) (group : Option String)
  | modes (activation : Option String) (l : List (String × Option String × String))
  | timing (period offset : Option PyNum)
deriving DecidableEq, Repr

/-- An event. -/
structure Event where
  kind : EventKind
  name : Name
  start : Option String
  target : EvTarget
deriving DecidableEq, Repr

/-- The behaviour: runnables, the component it belongs to if there is one (`get_valid_parent`,
element.py 7932-7938), events. -/
structure Behavior where
  runnables : List Run
  swc : Option EvComp
  events : List Event

/-- The argument `mode_ref` (element.py 8384-8417): a text, a list or tuple (`none` for entries that
are no texts), or something else. -/
inductive ModeArg where
  | text (s : String)
  | list (l : List (Option String))
  | other
deriving DecidableEq, Repr

/-- The methods with the arguments that are special to them. -/
inductive Request where
  | background
  | dataReceiveError (text : String)
  | dataReceived (text : String)
  | dataSendCompleted
  | dataWriteCompleted
  | init
  | operationInvoked (text : String)
  | modeManagerError (port : String)
  | modeSwitch (arg : ModeArg) (activation : Option String)
  | timing (period offset : Option PyNum)
deriving DecidableEq, Repr

/-- `get_valid_behavior_settings` (element.py 7940-7948, 3090-3096) -/
def settingsOf (b : Behavior) : Except PyErr Settings :=
  match b.swc with
  | none => .error .runtimeError
  | some c =>
    match c.root with
    | none => .error .valueError
    | some none => .error .valueError
    | some (some s) => .ok s

/-- The name before it is made unique: the given one, or the prefix from the settings and the names
of what the event is about (e.g. element.py 8082-8089, 8126-8136). -/
def eventBase (b : Behavior) (given : Option Name) (key : String) (parts : List String) :
    Except PyErr Name :=
  match given with
  | some n => .ok n
  | none =>
    match settingsOf b with
    | .error e => .error e
    | .ok s =>
      match s key with
      | none => .error .attributeError
      | some none => .error .runtimeError
      | some (some p) =>
        if p = "" then .error .runtimeError
        else .ok (joinL '_' (p.toList :: parts.map String.toList))

/-- `find_runnable` (element.py 8051-8058) -/
def findRunnable (b : Behavior) (name : String) : Option Run :=
  b.runnables.find? fun r => r.name = name

/-- `find_r_port` (element.py 5048-5055) -/
def findRPort (c : EvComp) (name : List Char) : Option EvPort :=
  c.ports.find? fun p => p.kind ≠ .p && p.name.toList = name

/-- `find_p_port` (element.py 5057-5064) -/
def findPPort (c : EvComp) (name : List Char) : Option EvPort :=
  c.ports.find? fun p => p.kind ≠ .r && p.name.toList = name

/-- The element of a list meant by a name (element.py 5079-5088, 5106-5115). -/
def chooseElem (l : List Elem) (name : Option (List Char)) : Except PyErr (Option Elem) :=
  if name = none ∨ name = some [] then
    match l with
    | [e] => .ok (some e)
    | _ => .error .valueError
  else .ok (l.find? fun e => some e.name.toList = name)

/-- `get_data_element_in_port` (element.py 5066-5091) -/
def dataElementIn (c : EvComp) (p : EvPort) (name : Option (List Char)) : Except PyErr (Option Elem) :=
  if c.root.isNone then .error .assertionError
  else
    match p.iface with
    | .error e => .error e
    | .ok (.senderReceiver l) => chooseElem l name
    | .ok _ => .error .typeError

/-- `get_operation_in_port` (element.py 5093-5118) -/
def operationIn (c : EvComp) (p : EvPort) (name : Option (List Char)) : Except PyErr (Option Elem) :=
  if c.root.isNone then .error .assertionError
  else
    match p.iface with
    | .error e => .error e
    | .ok (.clientServer l) => chooseElem l name
    | .ok _ => .error .typeError

/-- `get_mode_declaration_group_in_port` (element.py 5120-5135) -/
def modeGroupIn (c : EvComp) (p : EvPort) : Except PyErr (Option ModeProto) :=
  if c.root.isNone then .error .assertionError
  else
    match p.iface with
    | .error e => .error e
    | .ok (.modeSwitch g) => .ok g
    | .ok _ => .error .typeError

/-- `<PortName>/<ElementName>` or `<PortName>` (element.py 8114-8118, 8165-8169, 8277-8281); further
parts are ignored. -/
def portParts (text : String) : Except PyErr (List Char × Option (List Char)) :=
  match splitRefStrict (.str text) with
  | .error e => .error e
  | .ok [a] => .ok (a, none)
  | .ok (a :: b :: _) => .ok (a, some b)
  | .ok [] => .error .indexError

/-- The events with new names. -/
def rename (events : List Event) (names : List Name) : List Event :=
  List.zipWith (fun e n => { e with name := n }) events names

/-- The end of each method (e.g. element.py 8090-8094): the name is made unique, which may rename
another event; the event is constructed, `made` being the outcome of this and of what is evaluated
for it; the event is appended.  `none`: the name has characters that are special in regular
expressions and not covered (`Verif.Names.compile`). -/
def finishEvent (D : Digits) (b : Behavior) (base : Name) (kind : EventKind) (start : Option String)
    (made : Except PyErr EvTarget) : Option (List Event × Except PyErr Event) :=
  match makeUnique D (b.events.map (·.name)) base with
  | none => none
  | some (names, u) =>
    match made with
    | .error e => some (rename b.events names, .error e)
    | .ok t => some (rename b.events names ++ [⟨kind, u, start, t⟩], .ok ⟨kind, u, start, t⟩)

/-- The constructor raises for the remaining keyword arguments, or not. -/
def constructed (extra : Option PyErr) (t : EvTarget) : Except PyErr EvTarget :=
  match extra with
  | some e => .error e
  | none => .ok t

/-- `create_background_event`, `create_init_event`, `create_timing_event` (element.py 8069-8094,
8234-8259, 8421-8447) -/
def createPlain (D : Digits) (b : Behavior) (run : String) (given : Option Name) (extra : Option PyErr)
    (key : String) (kind : EventKind) (t : EvTarget) : Option (List Event × Except PyErr Event) :=
  match findRunnable b run with
  | none => some (b.events, .error .keyError)
  | some r =>
    match eventBase b given key [run] with
    | .error e => some (b.events, .error e)
    | .ok base => finishEvent D b base kind r.ref (constructed extra t)

/-- `create_data_receive_error_event`, `create_data_received_event`,
`create_operation_invoked_event` (element.py 8096-8145, 8147-8196, 8261-8307) -/
def createOnPort (D : Digits) (b : Behavior) (run : String) (given : Option Name) (extra : Option PyErr)
    (key : String) (kind : EventKind) (text : String) (findPort : EvComp → List Char → Option EvPort)
    (elemIn : EvComp → EvPort → Option (List Char) → Except PyErr (Option Elem))
    (t : String → String → EvTarget) : Option (List Event × Except PyErr Event) :=
  match b.swc with
  | none => some (b.events, .error .runtimeError)
  | some c =>
    match findRunnable b run with
    | none => some (b.events, .error .keyError)
    | some r =>
      match portParts text with
      | .error e => some (b.events, .error e)
      | .ok (pn, en) =>
        match findPort c pn with
        | none => some (b.events, .error .valueError)
        | some p =>
          match elemIn c p en with
          | .error e => some (b.events, .error e)
          | .ok none => some (b.events, .error .valueError)
          | .ok (some e) =>
            match eventBase b given key [run, p.name, e.name] with
            | .error e => some (b.events, .error e)
            | .ok base => finishEvent D b base kind r.ref (constructed extra (t p.ref e.ref))

/-- `create_swc_mode_manager_error_event` (element.py 8309-8350) -/
def createManagerError (D : Digits) (b : Behavior) (run : String) (given : Option Name)
    (extra : Option PyErr) (port : String) : Option (List Event × Except PyErr Event) :=
  match b.swc with
  | none => some (b.events, .error .runtimeError)
  | some c =>
    match findRunnable b run with
    | none => some (b.events, .error .keyError)
    | some r =>
      match findPPort c port.toList with
      | none => some (b.events, .error .valueError)
      | some p =>
        match modeGroupIn c p with
        | .error e => some (b.events, .error e)
        | .ok none => some (b.events, .error .valueError)
        | .ok (some g) =>
          match eventBase b given "swc_mode_manager_error_event_prefix" [run, p.name, g.name] with
          | .error e => some (b.events, .error e)
          | .ok base =>
            finishEvent D b base .modeManagerError r.ref (constructed extra (.modeGroup p.ref g.ref))

/-- `ModeDeclarationGroup.find` (element.py 3227-3237) and `ref()` of what it finds; a transition
has none. -/
def modeRef (g : ModeItems) (name : List Char) : Except PyErr String :=
  match g.modes.find? fun e => e.name.toList = name with
  | some e => .ok e.ref
  | none =>
    if g.transitions.any fun t => t.toList = name then .error .attributeError
    else .error .valueError

/-- `_get_swc_mode_switch_event_args` (element.py 8449-8475) and the texts of the references made
from its results (8392-8394, 8406-8408). -/
def modeArgs (c : EvComp) (text : String) : Except PyErr (String × Option String × String) :=
  match splitRefStrict (.str text) with
  | .error e => .error e
  | .ok [pn, mn] =>
    match findRPort c pn with
    | none => .error .valueError
    | some p =>
      match modeGroupIn c p with
      | .error e => .error e
      | .ok none => .error .valueError
      | .ok (some g) =>
        match g.type with
        | .error e => .error e
        | .ok items =>
          match modeRef items mn with
          | .error e => .error e
          | .ok m => .ok (p.ref, g.ref, m)
  | .ok _ => .error .valueError

/-- The entries of a list one after the other (element.py 8400-8410). -/
def modeList (c : EvComp) : List (Option String) → Except PyErr (List (String × Option String × String))
  | [] => .ok []
  | none :: _ => .error .typeError
  | some s :: rest =>
    if s = "" then .error .valueError
    else
      match modeArgs c s with
      | .error e => .error e
      | .ok m =>
        match modeList c rest with
        | .error e => .error e
        | .ok ms => .ok (m :: ms)

/-- The part of `create_swc_mode_mode_switch_event` after the name was made unique (element.py
8383-8417). -/
def modesOf (c : EvComp) (extra : Option PyErr) (activation : Option String) :
    ModeArg → Except PyErr EvTarget
  | .text s =>
    if s = "" then .error .valueError
    else
      match modeArgs c s with
      | .error e => .error e
      | .ok m => constructed extra (.modes activation [m])
  | .list l =>
    if l.length ≠ 2 then .error .valueError
    else
      match modeList c l with
      | .error e => .error e
      | .ok ms => constructed extra (.modes activation ms)
  | .other => .error .typeError

/-- `create_swc_mode_mode_switch_event` (element.py 8352-8419) -/
def createModeSwitch (D : Digits) (b : Behavior) (run : String) (given : Option Name)
    (extra : Option PyErr) (arg : ModeArg) (activation : Option String) :
    Option (List Event × Except PyErr Event) :=
  match b.swc with
  | none => some (b.events, .error .runtimeError)
  | some c =>
    if c.root.isNone then some (b.events, .error .assertionError)
    else
      match findRunnable b run with
      | none => some (b.events, .error .keyError)
      | some r =>
        match eventBase b given "swc_mode_switch_event_prefix" [run] with
        | .error e => some (b.events, .error e)
        | .ok base => finishEvent D b base .modeSwitch r.ref (modesOf c extra activation arg)

/-- `float(x)` (element.py 7626-7627, base.py 136-144) -/
def asFloat (x : Option PyNum) : Option PyNum := x.map fun n => .float (toFloat n)

/-- The methods (element.py 8069-8447): the events afterwards and the outcome. -/
def createEvent (D : Digits) (b : Behavior) (run : String) (given : Option Name)
    (extra : Option PyErr) : Request → Option (List Event × Except PyErr Event)
  | .background => createPlain D b run given extra "background_event_prefix" .background .nothing
  | .init => createPlain D b run given extra "init_event_prefix" .init .nothing
  | .timing period offset =>
    createPlain D b run given extra "timing_event_prefix" .timing (.timing (asFloat period) (asFloat offset))
  | .dataReceiveError text =>
    createOnPort D b run given extra "data_receive_error_event_prefix" .dataReceiveError text
      findRPort dataElementIn .data
  | .dataReceived text =>
    createOnPort D b run given extra "data_receive_event_prefix" .dataReceived text
      findRPort dataElementIn .data
  | .operationInvoked text =>
    createOnPort D b run given extra "operation_invoked_event_prefix" .operationInvoked text
      findPPort operationIn .operation
  | .modeManagerError port => createManagerError D b run given extra port
  | .modeSwitch arg activation => createModeSwitch D b run given extra arg activation
  -- element.py 8198-8214, 8216-8232
  | .dataSendCompleted => some (b.events, .error .notImplemented)
  | .dataWriteCompleted => some (b.events, .error .notImplemented)

end Verif.Swc
