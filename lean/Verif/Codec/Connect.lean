import Verif.Codec.TypeHeader
import Verif.Swc.Connect
/-
`CompositionSwComponentType.create_connector` on the objects of packages: what it reads of them, the
connector object it makes and where it puts it (src/autosar/xml/element.py; all line numbers without
a file are of that file).
-/
namespace Verif.Codec.Connect
open Verif.Py Verif.Ref Verif.Codec Verif.Codec.Find Verif.Pkg.Spec
open Verif.Codec.Owner (shortName clsOf)
open Verif.Codec.TypeHeader (attr refOf locate Place)

/-! ### What is read -/

/-- The three classes of ports (4698, 4744, 4794). -/
def portKind : Val Cls → Option Swc.PortKind
  | .obj .ProvidePortPrototype _ => some .p
  | .obj .RequirePortPrototype _ => some .r
  | .obj .PRPortPrototype _ => some .pr
  | _ => none

/-- A port: class and name. -/
def portOf (v : Val Cls) : Option Swc.Port := (portKind v).map fun k => ⟨k, shortName v⟩

/-- `self.ports` (4857-4877). -/
def portsOf (v : Val Cls) : List Swc.Port := (members v "ports").filterMap portOf

/-- `SwComponentPrototype`: name and `str(type_ref)` (5204-5216, 5483). -/
def protoOf (v : Val Cls) : Swc.Proto := ⟨shortName v, refOf (attr v "type_ref")⟩

/-- A connector that is there already.  Only its name is looked at (5399-5401), so what it joins is
left out. -/
def oldConnector (v : Val Cls) : Swc.Connector := ⟨shortName v, .passThrough none none, true⟩

/-- What `workspace.find` found, if its `ref()` is `ref`: the classes derived from `SwComponentType`
(5185, 5327) or something else. -/
def foundAs (ref : String) (v : Val Cls) : Swc.Found :=
  match v with
  | .obj .ApplicationSoftwareComponentType _ => .swc ⟨shortName v, some ref, [], portsOf v⟩
  | .obj .CompositionSwComponentType _ =>
    .swc ⟨shortName v, some ref,
      (members v "components").map shortName ++ (members v "connectors").map shortName, portsOf v⟩
  | _ => .other

/-- `workspace.find` (3038-3053) for a workspace with these packages. -/
def envOf (ps : List Pkg) : Swc.Env := fun r =>
  match locate ps r with
  | .error e => .error e
  | .ok none => .ok none
  | .ok (some (.element way v)) => .ok (some (foundAs (absRef way) v))
  | .ok (some _) => .ok (some .other)

/-- The composition at the end of a way of names. -/
def compOf (way : List String) (v : Val Cls) : Swc.Composition where
  name := shortName v
  ref := some (absRef way)
  comps := (members v "components").map protoOf
  conns := (members v "connectors").map oldConnector
  ports := portsOf v

/-! ### What is made -/

/-- The destination of the reference to a port (4732, 4782, 4838). -/
def destOf : Swc.PortKind → String
  | .p => "P_PORT_PROTOTYPE"
  | .r => "R_PORT_PROTOTYPE"
  | .pr => "PR_PORT_PROTOTYPE"

/-- An attribute that holds a reference, or None. -/
def refAttr (a : String) (r : Option RefObj) : List (String × Val Cls) :=
  match r with
  | some r => [(a, .ref r)]
  | none => []

/-- The `PortPrototypeRef` of a port. -/
def portRefObj (r : Swc.PortRef) : RefObj := ⟨"PortPrototypeRef", r.value, destOf r.dest⟩

/-- `PortInCompositionTypeInstanceRef` (5235-5243); the class stands for the tag it is written with
(see `Cls`). -/
def instObj (c : Cls) (i : Swc.InstRef) : Val Cls :=
  .obj c (refAttr "component_ref" (i.component.map fun s =>
      ⟨"SwComponentPrototypeRef", s, "SW_COMPONENT_PROTOTYPE"⟩) ++
    refAttr "port_ref" (i.port.map portRefObj))

/-- The tag of the inner port of a delegation (5295-5305; reference.py 395-414). -/
def innerClass (i : Swc.InstRef) : Cls :=
  match i.port with
  | some ⟨_, .r⟩ => .InnerRequiredPortInstanceRef
  | _ => .InnerProvidedPortInstanceRef

/-- The connector object (5259-5324). -/
def connectorObj (k : Swc.Connector) : Val Cls :=
  match k.joint with
  | .assembly p r => .obj .AssemblySwConnector
      [("name", .str k.name), ("provide_port", instObj .ProviderPortInstanceRef p),
       ("require_port", instObj .RequesterPortInstanceRef r)]
  | .delegation i o => .obj .DelegationSwConnector
      ([("name", .str k.name), ("inner_port", instObj (innerClass i) i)] ++
        refAttr "outer_port" (o.map portRefObj))
  | .passThrough p r => .obj .PassThroughSwConnector
      ([("name", .str k.name)] ++ refAttr "provide_port" (p.map portRefObj) ++
        refAttr "require_port" (r.map portRefObj))

/-- `self.connectors.append(connector)` (5386, 5538, 5548).  `connectors` is the last of the attributes
of the class. -/
def addTo (k : Val Cls) (v : Val Cls) : Val Cls :=
  match v with
  | .obj c fs => .obj c (fs.filter (·.1 ≠ "connectors") ++
      [("connectors", .list (members v "connectors" ++ [k]))])
  | v => v

/-- The packages after a change to the element at the end of a way of names. -/
def change (f : Val Cls → Val Cls) : List String → List Pkg → List Pkg
  | [], ps => ps
  | n :: rest, ps => ps.map fun p =>
    match p with
    | .mk h es qs =>
      if (Pkg.mk h es qs).name = some n then
        .mk h (match rest with
          | [m] => es.map fun v => if elemName v = some m then f v else v
          | _ => es) (change f rest qs)
      else .mk h es qs

/-- `composition.create_connector(port_ref1, port_ref2, workspace)` (5422-5466) for the composition `v` at
the end of the way: the packages afterwards and the connector, or the exception. -/
def createConnector (ps : List Pkg) (way : List String) (v : Val Cls) (a b : PyVal) :
    List Pkg × Except PyErr (Val Cls) :=
  match (Swc.createConnector (envOf ps) (compOf way v) a b).2 with
  | .error e => (ps, .error e)
  | .ok k => (change (addTo (connectorObj k)) way ps, .ok (connectorObj k))

end Verif.Codec.Connect
