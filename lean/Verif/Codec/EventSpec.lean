import Verif.Codec.Event
import Verif.Codec.ConnectSpec
import Verif.Swc.EventSpec
import Verif.Names.Lemmas
/-
What an event made in a document refers to (C68).
-/
namespace Verif.Codec.EventSpec
open Verif.Codec Verif.Codec.Spec Verif.Codec.Find Verif.Codec.FindSpec Verif.Codec.ConnectSpec
open Verif.Pkg.Spec Verif.Swc
open Verif.Swc.EventSpec (First Means)
open Verif.Codec.Event (Known)
open Verif.Names (Name Plain)

/-- The object has that name. -/
def Called (n : List Char) (x : Val Cls) : Prop := elemName x = some (String.ofList n)

/-- The first port of that name which requires something. -/
def RequiredPort (v : Val Cls) (n : List Char) (x : Val Cls) : Prop :=
  First (members v "ports") (fun x => (classOf x = some .RequirePortPrototype ∨
    classOf x = some .PRPortPrototype) ∧ Called n x) x

/-- The first port of that name which provides something. -/
def ProvidedPort (v : Val Cls) (n : List Char) (x : Val Cls) : Prop :=
  First (members v "ports") (fun x => (classOf x = some .ProvidePortPrototype ∨
    classOf x = some .PRPortPrototype) ∧ Called n x) x

/-- The entry named, or the only one if none is named. -/
def Picked (l : List (Val Cls)) (n : List Char) (x : Val Cls) : Prop :=
  (n = [] ∧ l = [x]) ∨ (n ≠ [] ∧ First l (Called n) x)

/-- The attribute `a` of `x` is a reference to the element `t` of class `c` at the way. -/
def Leads (ps : List Pkg) (x : Val Cls) (a : String) (c : Cls) (way : List String) (t : Val Cls) : Prop :=
  ∃ r, field x a = some (.ref r) ∧ TypeHeader.locate ps r.value = .ok (some (.element way t)) ∧
    ElementAt ps way t ∧ classOf t = some c

/-- The value is the reference of class `c` to the port of the component at the way. -/
def PortRef (c : String) (way : List String) (x r : Val Cls) : Prop :=
  ∃ n dest, elemName x = some n ∧ PortDest x dest ∧ r = .ref ⟨c, absRef (way ++ [n]), dest⟩

/-- The value is the reference of class `c` to something in the element at the way. -/
def PartRef (c dest : String) (way : List String) (x r : Val Cls) : Prop :=
  ∃ n, elemName x = some n ∧ r = .ref ⟨c, absRef (way ++ [n]), dest⟩

/-- The attribute with the reference to the group of the interface at the way; it is there if the group knows
its interface. -/
def GroupAttr (K : Known) (a : String) (way : List String) (g : Val Cls) (fs : List (String × Val Cls)) :
    Prop :=
  (K.group way = true ∧ ∃ r, PartRef "ModeDeclarationGroupPrototypeRef" "MODE_DECLARATION_GROUP_PROTOTYPE"
    way g r ∧ fs = [(a, r)]) ∨ (K.group way = false ∧ fs = [])

/-- A number as attribute, if it is given. -/
def NumAttr (a : String) (n : Option Verif.Num.PyNum) (fs : List (String × Val Cls)) : Prop :=
  (n = none ∧ fs = []) ∨ ∃ x, n = some x ∧ fs = [(a, .num x)]

/-- `<port>/<mode>`, and the object with the references to port, group and mode. -/
inductive ModeIn (ps : List Pkg) (K : Known) (way : List String) (v : Val Cls) :
    List Char → Val Cls → Prop
  | mk {pn mn : List Char} {x i g t m rp rm : Val Cls} {wayI wayT : List String}
      {fg : List (String × Val Cls)} : pn ≠ [] → '/' ∉ pn → '/' ∉ mn → RequiredPort v pn x →
      Leads ps x "port_interface_ref" .ModeSwitchInterface wayI i → field i "mode_group" = some g →
      Leads ps g "type_ref" .ModeDeclarationGroup wayT t →
      First (members t "mode_declarations") (Called mn) m →
      PortRef "AbstractRequiredPortPrototypeRef" way x rp →
      GroupAttr K "context_mode_declaration_group_prototype" wayI g fg →
      PartRef "ModeDeclarationRef" "MODE_DECLARATION" wayT m rm →
      ModeIn ps K way v (pn ++ '/' :: mn) (.obj .RModeInAtomicSwcInstanceRef
        ([("context_port", rp)] ++ fg ++ [("target_mode_declaration", rm)]))

/-- The attribute with the activation. -/
def Activation (a : Option String) (fs : List (String × Val Cls)) : Prop :=
  (a = none ∧ fs = []) ∨ ∃ x, a = some x ∧ fs = [("activation", .enum ⟨"ModeActivationKind", x⟩)]

/-- What the event created on a request for the component `v` at the way is about: its class, the setting
with the prefix of its name, the objects whose names follow the runnable in its name, and its attributes
besides name and runnable. -/
inductive About (ps : List Pkg) (K : Known) (way : List String) (v : Val Cls) :
    Request → Cls → String → List (Val Cls) → List (String × Val Cls) → Prop
  | background : About ps K way v .background .BackgroundEvent "background_event_prefix" [] []
  | init : About ps K way v .init .InitEvent "init_event_prefix" [] []
  | timing {period offset : Option Verif.Num.PyNum} {f g : List (String × Val Cls)} :
      NumAttr "period" (asFloat period) f → NumAttr "offset" (asFloat offset) g →
      About ps K way v (.timing period offset) .TimingEvent "timing_event_prefix" [] (f ++ g)
  | dataReceiveError {text : String} {pn en : List Char} {x i e rp re : Val Cls} {wayI : List String} :
      Means text.toList pn en → RequiredPort v pn x →
      Leads ps x "port_interface_ref" .SenderReceiverInterface wayI i →
      Picked (members i "data_elements") en e →
      PortRef "AbstractRequiredPortPrototypeRef" way x rp →
      PartRef "VariableDataPrototypeRef" "VARIABLE_DATA_PROTOTYPE" wayI e re →
      About ps K way v (.dataReceiveError text) .DataReceiveErrorEvent "data_receive_error_event_prefix" [x, e]
        [("data", .obj .RVariableInAtomicSwcInstanceRef [("context_port", rp), ("target_data_element", re)])]
  | dataReceived {text : String} {pn en : List Char} {x i e rp re : Val Cls} {wayI : List String} :
      Means text.toList pn en → RequiredPort v pn x →
      Leads ps x "port_interface_ref" .SenderReceiverInterface wayI i →
      Picked (members i "data_elements") en e →
      PortRef "AbstractRequiredPortPrototypeRef" way x rp →
      PartRef "VariableDataPrototypeRef" "VARIABLE_DATA_PROTOTYPE" wayI e re →
      About ps K way v (.dataReceived text) .DataReceivedEvent "data_receive_event_prefix" [x, e]
        [("data", .obj .RVariableInAtomicSwcInstanceRef [("context_port", rp), ("target_data_element", re)])]
  | operationInvoked {text : String} {pn en : List Char} {x i e rp re : Val Cls} {wayI : List String} :
      Means text.toList pn en → ProvidedPort v pn x →
      Leads ps x "port_interface_ref" .ClientServerInterface wayI i →
      Picked (members i "operations") en e →
      PortRef "AbstractProvidedPortPrototypeRef" way x rp →
      PartRef "ClientServerOperationRef" "CLIENT_SERVER_OPERATION" wayI e re →
      About ps K way v (.operationInvoked text) .OperationInvokedEvent "operation_invoked_event_prefix" [x, e]
        [("operation", .obj .POperationInAtomicSwcInstanceRef
          [("context_port", rp), ("target_provided_operation", re)])]
  | modeManagerError {port : String} {x i g rp : Val Cls} {wayI : List String}
      {fg : List (String × Val Cls)} :
      ProvidedPort v port.toList x → Leads ps x "port_interface_ref" .ModeSwitchInterface wayI i →
      field i "mode_group" = some g → PortRef "AbstractProvidedPortPrototypeRef" way x rp →
      GroupAttr K "target_mode_group" wayI g fg →
      About ps K way v (.modeManagerError port) .SwcModeManagerErrorEvent
        "swc_mode_manager_error_event_prefix" [x, g]
        [("mode_group", .obj .PModeGroupInAtomicSwcInstanceRef ([("context_port", rp)] ++ fg))]
  | mode {text : String} {a : Option String} {m : Val Cls} {f : List (String × Val Cls)} :
      ModeIn ps K way v text.toList m → Activation a f →
      About ps K way v (.modeSwitch (.text text) a) .SwcModeSwitchEvent "swc_mode_switch_event_prefix" []
        (f ++ [("mode", .list [m])])
  | transition {text text' : String} {a : Option String} {m m' : Val Cls} {f : List (String × Val Cls)} :
      ModeIn ps K way v text.toList m → ModeIn ps K way v text'.toList m' → Activation a f →
      About ps K way v (.modeSwitch (.list [some text, some text']) a) .SwcModeSwitchEvent
        "swc_mode_switch_event_prefix" [] (f ++ [("mode", .list [m, m'])])

/-- The name of the event before it is made unique: the name given, or prefix, runnable and the names of the
objects it is about, joined by underscores. -/
def BaseName (K : Known) (given : Option Name) (key run : String) (parts : List (Val Cls)) (base : Name) :
    Prop :=
  given = some base ∨
  (given = none ∧ ∃ s p names, K.settings = some s ∧ s key = some (some p) ∧ p ≠ "" ∧
    parts.map elemName = names.map some ∧ base = (String.intercalate "_" (p :: run :: names)).toList)

/-- A name that can be written, without the characters that mean something in regular expressions. -/
def NameOk (base : Name) : Prop :=
  base ≠ [] ∧ Plain base ∧ plainText (String.ofList base) = true

/-- The numbers and members given can be written. -/
def ValuesOk : Request → Prop
  | .timing period offset => ∀ n, asFloat period = some n ∨ asFloat offset = some n →
      ∃ f, n = .float f ∧ floatOk f = true ∧ f ≠ .fin true 0 0
  | .modeSwitch _ a => ∀ x, a = some x → x ∈ ["ON_ENTRY", "ON_EXIT", "ON_TRANSITION"]
  | _ => True

/-- The request is about mode groups. -/
def AboutModes : Request → Prop
  | .modeManagerError _ | .modeSwitch _ _ => True
  | _ => False

/-- The component with other events in its behaviour `b`, which is `b'` then; everything else as it was. -/
def WithEvents (l : List (Val Cls)) (v b v' b' : Val Cls) : Prop :=
  classOf v' = classOf v ∧ field v' "internal_behavior" = some b' ∧
  (∀ a, a ≠ "internal_behavior" → field v' a = field v a) ∧
  classOf b' = classOf b ∧ field b' "events" = some (.list l) ∧ ∀ a, a ≠ "events" → field b' a = field b a

/-- The same object, apart from its name. -/
def Renamed (n : String) (x x' : Val Cls) : Prop :=
  classOf x' = classOf x ∧ elemName x' = some n ∧ ∀ a, a ≠ "name" → field x' a = field x a

/-- The list with its last entry of that name renamed. -/
def OneRenamed (old new : String) (l l' : List (Val Cls)) : Prop :=
  ∃ pre x x' post, l = pre ++ x :: post ∧ l' = pre ++ x' :: post ∧ elemName x = some old ∧
    (∀ y ∈ post, elemName y ≠ some old) ∧ Renamed new x x'

/-- The event starts the first runnable of that name in the behaviour `b` of the component at the way; the
reference is left out if the behaviour does not know its component. -/
def Starts (K : Known) (way : List String) (b : Val Cls) (run : String) (k : Val Cls) : Prop :=
  ∃ x n, First (members b "runnables") (fun x => elemName x = some run) x ∧ elemName b = some n ∧
    field k "start_on_event" = if K.behavior then
      some (.ref ⟨"RunnableEntityRef", absRef (way ++ [n, run]), "RUNNABLE_ENTITY"⟩) else none

/-- The attributes besides name and runnable are these. -/
def HasOnly (fs : List (String × Val Cls)) (k : Val Cls) : Prop :=
  ∀ a, a ≠ "name" → a ≠ "start_on_event" → field k a = fs.lookup a

end Verif.Codec.EventSpec
