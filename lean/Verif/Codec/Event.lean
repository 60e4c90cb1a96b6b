import Verif.Codec.Connect
import Verif.Swc.Event
/-
The methods `create_*_event` of `SwcInternalBehavior` on the objects of packages: what they read of them, the
event object they make and where it is put (src/autosar/xml/element.py; all line numbers without a file
are of that file).
-/
namespace Verif.Codec.Event
open Verif.Py Verif.Ref Verif.Codec Verif.Codec.Find Verif.Pkg.Spec
open Verif.Codec.Owner (shortName clsOf)
open Verif.Codec.TypeHeader (attr refOf locate Place)
open Verif.Codec.Connect (portKind destOf refAttr change)
open Verif.Names (Name Digits)

/-- What the attributes of the objects do not tell: whether the behaviour knows its component (it does if it
was set with the property or made with `create_internal_behavior`, 5161-5182, not if it was given to the
constructor, 5143-5152), for each mode switch interface, given by the way of names to it, whether its group
knows it (it does if it was made with `create_mode_group`, 3889), and the settings of the workspace for
behaviours (`none`: a document, which has none, 3090-3096). -/
structure Known where
  behavior : Bool
  group : List String → Bool
  settings : Option Verif.Ref.Settings

/-! ### What is read -/

/-- A data element, operation or mode: name and `ref()` (268-280; 2054-2060, 3125-3131, 3657-3665). -/
def elemOf (way : List String) (x : Val Cls) : Swc.Elem := ⟨shortName x, absRef (way ++ [shortName x])⟩

/-- `workspace.find(type_ref)` for the type of a mode group (8469-8471, 3038-3053).  Simplification: what is
found and is no mode declaration group counts as an exception. -/
def modesAt (ps : List Pkg) (ref : Option String) : Except PyErr Swc.ModeItems :=
  match ref with
  | none => .error .typeError
  | some r =>
    match locate ps r with
    | .error e => .error e
    | .ok (some (.element way v)) =>
      match v with
      | .obj .ModeDeclarationGroup _ =>
        .ok ⟨(members v "mode_declarations").map (elemOf way), (members v "mode_transitions").map shortName⟩
      | _ => .error .attributeError
    | .ok (some _) => .error .attributeError
    | .ok none => .error .invalidReference

/-- The mode group of the interface at the way (3863, 3889, 3301-3307). -/
def groupOf (ps : List Pkg) (K : Known) (way : List String) (g : Val Cls) : Swc.ModeProto where
  name := shortName g
  ref := if K.group way then some (absRef (way ++ [shortName g])) else none
  type := modesAt ps (refOf (attr g "type_ref"))

/-- The interfaces that are distinguished (5078, 5105, 5131). -/
def ifaceAs (ps : List Pkg) (K : Known) (way : List String) (v : Val Cls) : Swc.EvIface :=
  match v with
  | .obj .SenderReceiverInterface _ => .senderReceiver ((members v "data_elements").map (elemOf way))
  | .obj .ClientServerInterface _ => .clientServer ((members v "operations").map (elemOf way))
  | .obj .ModeSwitchInterface _ => .modeSwitch ((attr v "mode_group").map (groupOf ps K way))
  | _ => .other

/-- `workspace.find(port.port_interface_ref)` (5075-5077, 3038-3053). -/
def ifaceAt (ps : List Pkg) (K : Known) (ref : Option String) : Except PyErr Swc.EvIface :=
  match ref with
  | none => .error .typeError
  | some r =>
    match locate ps r with
    | .error e => .error e
    | .ok (some (.element way v)) => .ok (ifaceAs ps K way v)
    | .ok (some _) => .ok .other
    | .ok none => .error .invalidReference

/-- A port of the component at the way (4698-4838). -/
def portOf (ps : List Pkg) (K : Known) (way : List String) (x : Val Cls) : Option Swc.EvPort :=
  (portKind x).map fun k =>
    ⟨shortName x, k, absRef (way ++ [shortName x]), ifaceAt ps K (refOf (attr x "port_interface_ref"))⟩

/-- The component `v` at the way. -/
def compOf (ps : List Pkg) (K : Known) (way : List String) (v : Val Cls) : Swc.EvComp where
  ports := (members v "ports").filterMap (portOf ps K way)
  root := some K.settings

/-- A runnable of the behaviour of that name (6607-6613, 268-280). -/
def runOf (K : Known) (way : List String) (name : String) (x : Val Cls) : Swc.Run where
  name := shortName x
  ref := if K.behavior then some (absRef (way ++ [name, shortName x])) else none

/-- An event that is there already.  Only its name is looked at (304-331, 8060-8067), so the rest is left
out. -/
def oldEvent (x : Val Cls) : Swc.Event := ⟨.background, (shortName x).toList, none, .nothing⟩

/-- The behaviour `b` of the component `v` at the way. -/
def behaviorOf (ps : List Pkg) (K : Known) (way : List String) (v b : Val Cls) : Swc.Behavior where
  runnables := (members b "runnables").map (runOf K way (shortName b))
  swc := if K.behavior then some (compOf ps K way v) else none
  events := (members b "events").map oldEvent

/-! ### What is made -/

/-- The destination of the reference to a port (4732, 4782, 4838): of the first port on that side with
that reference. -/
def destFor (ports : List Swc.EvPort) (other : Swc.PortKind) (ref : String) : String :=
  match ports.find? fun p => p.kind ≠ other && p.ref = ref with
  | some p => destOf p.kind
  | none => ""

/-- The reference to a required port (5695, 5654; xml/base.py 112-134). -/
def reqRef (ports : List Swc.EvPort) (ref : String) : Val Cls :=
  .ref ⟨"AbstractRequiredPortPrototypeRef", ref, destFor ports .p ref⟩

/-- The reference to a provided port (5573, 5593). -/
def provRef (ports : List Swc.EvPort) (ref : String) : Val Cls :=
  .ref ⟨"AbstractProvidedPortPrototypeRef", ref, destFor ports .r ref⟩

/-- The reference to a mode group, or None. -/
def groupRef (ref : Option String) : Option RefObj :=
  ref.map fun s => ⟨"ModeDeclarationGroupPrototypeRef", s, "MODE_DECLARATION_GROUP_PROTOTYPE"⟩

/-- `RModeInAtomicSwcInstanceRef` (5637-5658). -/
def modeObj (ports : List Swc.EvPort) (m : String × Option String × String) : Val Cls :=
  .obj .RModeInAtomicSwcInstanceRef
    ([("context_port", reqRef ports m.1)] ++
      refAttr "context_mode_declaration_group_prototype" (groupRef m.2.1) ++
      [("target_mode_declaration", .ref ⟨"ModeDeclarationRef", m.2.2, "MODE_DECLARATION"⟩)])

/-- A number, or None. -/
def numAttr (a : String) (n : Option Verif.Num.PyNum) : List (String × Val Cls) :=
  match n with
  | some n => [(a, .num n)]
  | none => []

/-- The activation, or None (7560). -/
def actAttr (a : Option String) : List (String × Val Cls) :=
  match a with
  | some a => [("activation", .enum ⟨"ModeActivationKind", a⟩)]
  | none => []

/-- The attributes special to the class of the event (7218-7231, 7470-7483, 7517-7528, 7560-7594,
7617-7627). -/
def targetFields (ports : List Swc.EvPort) : Swc.EvTarget → List (String × Val Cls)
  | .nothing => []
  | .data p e => [("data", .obj .RVariableInAtomicSwcInstanceRef
      [("context_port", reqRef ports p),
       ("target_data_element", .ref ⟨"VariableDataPrototypeRef", e, "VARIABLE_DATA_PROTOTYPE"⟩)])]
  | .operation p o => [("operation", .obj .POperationInAtomicSwcInstanceRef
      [("context_port", provRef ports p),
       ("target_provided_operation", .ref ⟨"ClientServerOperationRef", o, "CLIENT_SERVER_OPERATION"⟩)])]
  | .modeGroup p g => [("mode_group", .obj .PModeGroupInAtomicSwcInstanceRef
      ([("context_port", provRef ports p)] ++ refAttr "target_mode_group" (groupRef g)))]
  | .modes a l => actAttr a ++ [("mode", .list (l.map (modeObj ports)))]
  | .timing p o => numAttr "period" p ++ numAttr "offset" o

/-- The classes (7184, 7202, 7245, 7382, 7454, 7502, 7542, 7608). -/
def kindCls : Swc.EventKind → Cls
  | .background => .BackgroundEvent
  | .dataReceiveError => .DataReceiveErrorEvent
  | .dataReceived => .DataReceivedEvent
  | .init => .InitEvent
  | .operationInvoked => .OperationInvokedEvent
  | .modeManagerError => .SwcModeManagerErrorEvent
  | .modeSwitch => .SwcModeSwitchEvent
  | .timing => .TimingEvent

/-- The event object (7128-7145 for name and runnable). -/
def eventObj (ports : List Swc.EvPort) (e : Swc.Event) : Val Cls :=
  .obj (kindCls e.kind) ([("name", .str (String.ofList e.name))] ++
    refAttr "start_on_event" (e.start.map fun s => ⟨"RunnableEntityRef", s, "RUNNABLE_ENTITY"⟩) ++
    targetFields ports e.target)

/-- The object with another name (325). -/
def setName (n : Name) : Val Cls → Val Cls
  | .obj c fs => .obj c (fs.map fun f => if f.1 = "name" then (f.1, .str (String.ofList n)) else f)
  | v => v

/-- The behaviour with these events; `runnables` and `port_api_options` are the attributes of the class behind
`events` (7865-7930). -/
def putEvents (l : List (Val Cls)) : Val Cls → Val Cls
  | .obj c fs => .obj c (fs.filter (·.1 ∉ ["events", "runnables", "port_api_options"]) ++
      [("events", .list l)] ++ fs.filter (·.1 ∈ ["runnables", "port_api_options"]))
  | v => v

/-- The component with this behaviour instead of its own. -/
def setBehavior (b : Val Cls) : Val Cls → Val Cls
  | .obj c fs => .obj c (fs.map fun f => if f.1 = "internal_behavior" then (f.1, b) else f)
  | v => v

/-- `behavior.create_*_event(...)` (8069-8447) for the behaviour `b` of the component `v` at the end of the
way: the packages afterwards and the event, or the exception.  (What an exception may leave behind is said in
C55; it is left out here.)  `none`: as `Swc.createEvent`. -/
def createEvent (D : Digits) (ps : List Pkg) (K : Known) (way : List String) (v b : Val Cls) (run : String)
    (given : Option Name) (extra : Option PyErr) (req : Swc.Request) :
    Option (Except PyErr (List Pkg × Val Cls)) :=
  match Swc.createEvent D (behaviorOf ps K way v b) run given extra req with
  | none => none
  | some (_, .error e) => some (.error e)
  | some (evs, .ok e) =>
    let k := eventObj ((members v "ports").filterMap (portOf ps K way)) e
    let l := List.zipWith (fun x (e : Swc.Event) => setName e.name x) (members b "events") evs ++ [k]
    some (.ok (change (setBehavior (putEvents l b)) way ps, k))

end Verif.Codec.Event
