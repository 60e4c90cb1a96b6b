import Verif.Codec.Event
/-
`RunnableEntity.create_port_access` for the components of documents: what is read of them (src/autosar/xml/element.py;
all line numbers are of that file).  The method itself is in `Swc.createAccess`.
-/
namespace Verif.Codec.Access
open Verif.Py Verif.Ref Verif.Codec Verif.Codec.Find Verif.Pkg.Spec
open Verif.Codec.Owner (shortName)
open Verif.Codec.TypeHeader (attr refOf locate Place)
open Verif.Codec.Connect (portKind)
open Verif.Codec.Event (Known)

/-- A data element, parameter or operation of the interface at the way (268-280; 2054-2060, 2087-2093, 3657-3665). -/
def partOf (way : List String) (x : Val Cls) : Swc.AccElem := ⟨shortName x, some (absRef (way ++ [shortName x]))⟩

/-- The mode group of the interface at the way (3863, 3889, 3301-3307). -/
def groupOf (K : Known) (way : List String) (g : Val Cls) : Swc.AccElem :=
  ⟨shortName g, if K.group way then some (absRef (way ++ [shortName g])) else none⟩

/-- The interface at the way, as distinguished at 6723-6735. -/
def ifaceAs (K : Known) (way : List String) (v : Val Cls) : Swc.AccIface :=
  match v with
  | .obj .SenderReceiverInterface _ => .data ((members v "data_elements").map (partOf way))
  | .obj .NvDataInterface _ => .data ((members v "data_elements").map (partOf way))
  | .obj .ModeSwitchInterface _ => .mode ((attr v "mode_group").map (groupOf K way))
  | .obj .ParameterInterface _ => .params ((members v "parameters").map (partOf way))
  | .obj .ClientServerInterface _ => .ops ((members v "operations").map (partOf way))
  | _ => .other

/-- `workspace.get_port_interface(port.port_interface_ref)` (3098-3105, 3038-3053, 6685). -/
def ifaceAt (ps : List Pkg) (K : Known) (ref : Option String) : Except PyErr Swc.AccIface :=
  match ref with
  | none => .error .typeError
  | some r =>
    match locate ps r with
    | .error e => .error e
    | .ok (some (.element way v)) => .ok (ifaceAs K way v)
    | .ok (some _) => .ok .other
    | .ok none => .error .invalidReference

/-- A port of the component at the way (4698-4838). -/
def portOf (ps : List Pkg) (K : Known) (way : List String) (x : Val Cls) : Option Swc.AccPort :=
  (portKind x).map fun k =>
    ⟨shortName x, k, absRef (way ++ [shortName x]), ifaceAt ps K (refOf (attr x "port_interface_ref"))⟩

/-- The ports of the component `v` at the way. -/
def portsOf (ps : List Pkg) (K : Known) (way : List String) (v : Val Cls) : List Swc.AccPort :=
  (members v "ports").filterMap (portOf ps K way)

/-- `create_port_access` of a runnable of the behaviour of the component `v` at the way (6660-6686): the points that
are made, and the outcome.  RuntimeError if the behaviour does not know its component (7932-7938), ValueError in
documents, which have no settings (3090-3096). -/
def createAccess (ps : List Pkg) (K : Known) (way : List String) (v : Val Cls) (l : List (String × Swc.Extra)) :
    List Swc.Point × Except PyErr Unit :=
  if K.behavior then
    match K.settings with
    | none => ([], .error .valueError)
    | some s => Swc.createAccess s (portsOf ps K way v) [] l
  else ([], .error .runtimeError)

end Verif.Codec.Access
