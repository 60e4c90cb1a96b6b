import Verif.Codec.Event
import Verif.Swc.ComSpec
/-
Communication specifications made for the port interfaces of documents: what `make_from_port_interface`,
`create_p_port`, `create_r_port` and `create_pr_port` read of the interface (src/autosar/xml/element.py; all line
numbers are of that file).  The methods themselves are in `Swc.makeFromInterface`, `Swc.createPort`, `Swc.prSpecs`.
-/
namespace Verif.Codec.PortSpec
open Verif.Py Verif.Ref Verif.Codec Verif.Codec.Find Verif.Pkg.Spec
open Verif.Codec.Owner (shortName)
open Verif.Codec.TypeHeader (attr variants locate Place)

/-- `SwDataDefPropsConditional.is_queued` (1784-1791). -/
def propsQueued (v : Val Cls) : Bool :=
  match attr v "impl_policy" with
  | some (.enum m) => m = ⟨"SwImplPolicy", "QUEUED"⟩
  | _ => false

/-- `VariableDataPrototype.is_queued` (2062-2069): only the first variant counts. -/
def isQueued (x : Val Cls) : Bool :=
  match variants (attr x "sw_data_def_props") with
  | some (v :: _) => propsQueued v
  | _ => false

/-- A data element of the interface at the way (2054-2069, 268-280). -/
def dataItem (way : List String) (x : Val Cls) : Swc.Item :=
  ⟨shortName x, some (absRef (way ++ [shortName x])), isQueued x⟩

/-- An operation of the interface at the way (3657-3665, 268-280). -/
def opItem (way : List String) (x : Val Cls) : Swc.Item :=
  ⟨shortName x, some (absRef (way ++ [shortName x])), false⟩

/-- The interface at the way, as the methods see it (4062, 4095, 4116, 4121, 4376, 4411, 4433, 4438).  `group`: whether
the mode group of the interface at a way knows its interface (it does if it was made with `create_mode_group`, 3889,
not if it was given to the constructor, 3863). -/
def ifaceOf (group : List String → Bool) (way : List String) (v : Val Cls) : Swc.Iface :=
  match v with
  | .obj .SenderReceiverInterface _ => .senderReceiver ((members v "data_elements").map (dataItem way))
  | .obj .ClientServerInterface _ => .clientServer ((members v "operations").map (opItem way))
  | .obj .ModeSwitchInterface _ =>
    .modeSwitch ((attr v "mode_group").map fun g =>
      if group way then some (absRef (way ++ [shortName g])) else none)
  | _ => .other

/-- `make_from_port_interface(document.find(ref), **kwargs)` (3038-3053, 4039-4122, 4350-4439). -/
def specsFor {α : Type} (acc : Swc.Accepts α) (group : List String → Bool) (ps : List Pkg) (side : Swc.Side)
    (ref : String) (kwargs : Swc.Args α) : Except PyErr (Swc.Made α) :=
  match locate ps ref with
  | .error e => .error e
  | .ok none => Swc.makeFromInterface acc side none kwargs
  | .ok (some (.element way v)) => Swc.makeFromInterface acc side (some (ifaceOf group way v)) kwargs
  | .ok (some _) => Swc.makeFromInterface acc side (some .other) kwargs

end Verif.Codec.PortSpec
