import Verif.Codec.FindSpec
import Verif.Codec.TypeHeader
import Verif.Pkg.Spec
/-
What the texts given to create_connector name, and what a connector joins (C67).
-/
namespace Verif.Codec.ConnectSpec
open Verif.Codec Verif.Codec.Spec Verif.Codec.Find Verif.Codec.FindSpec Verif.Pkg.Spec

/-- An application component or a composition. -/
def IsComponent (v : Val Cls) : Prop :=
  (∃ fs, v = .obj .ApplicationSoftwareComponentType fs) ∨ ∃ fs, v = .obj .CompositionSwComponentType fs

/-- The attribute of an object. -/
def field : Val Cls → String → Option (Val Cls)
  | .obj _ fs, a => fs.lookup a
  | _, _ => none

/-- A port, with the way of names to it; for ports inside the composition also the component it
belongs to, with its way. -/
structure End where
  comp : Option (List String × Val Cls)
  way : List String
  port : Val Cls

/-- The text is "port" for a port of the composition at `way`, or "component/port" for a port of the type
of a component in it; one slash may stand before it.  (`locate` is `find` that also tells the way of names to
what it found, see C66.) -/
inductive Named (ps : List Pkg) (way : List String) (v : Val Cls) : String → End → Prop
  | outer {p : Val Cls} {n s : String} : p ∈ members v "ports" → elemName p = some n →
      s = n ∨ s = "/" ++ n → Named ps way v s ⟨none, way ++ [n], p⟩
  | inner {x t p : Val Cls} {r : Ref.RefObj} {wayT : List String} {m n s : String} :
      x ∈ members v "components" → elemName x = some m → field x "type_ref" = some (.ref r) →
      TypeHeader.locate ps r.value = .ok (some (.element wayT t)) → ElementAt ps wayT t → IsComponent t →
      p ∈ members t "ports" → elemName p = some n → s = m ++ "/" ++ n ∨ s = "/" ++ m ++ "/" ++ n →
      Named ps way v s ⟨some (way ++ [m], x), wayT ++ [n], p⟩

/-- The destination of references to a port. -/
inductive PortDest : Val Cls → String → Prop
  | provide {fs} : PortDest (.obj .ProvidePortPrototype fs) "P_PORT_PROTOTYPE"
  | require {fs} : PortDest (.obj .RequirePortPrototype fs) "R_PORT_PROTOTYPE"
  | both {fs} : PortDest (.obj .PRPortPrototype fs) "PR_PORT_PROTOTYPE"

/-- The attribute is the reference to the port. -/
def RefersTo (k : Val Cls) (a : String) (e : End) : Prop :=
  ∃ dest, PortDest e.port dest ∧ field k a = some (.ref ⟨"PortPrototypeRef", absRef e.way, dest⟩)

/-- The attribute holds the references to the component and to the port. -/
def Instance (k : Val Cls) (a : String) (e : End) : Prop :=
  ∃ i way x, field k a = some i ∧ e.comp = some (way, x) ∧
    field i "component_ref" =
      some (.ref ⟨"SwComponentPrototypeRef", absRef way, "SW_COMPONENT_PROTOTYPE"⟩) ∧
    RefersTo i "port_ref" e

/-- The last name on the way. -/
def last (way : List String) : String := way.getLast?.getD ""

/-- The connector joins the two ends, in either order, and has a name made of theirs. -/
inductive Connects : Val Cls → End → End → Prop
  /-- between a provided and a required port of two components -/
  | assembly {k d e wd xd we xe} : classOf k = some .AssemblySwConnector →
      classOf d.port = some .ProvidePortPrototype → classOf e.port = some .RequirePortPrototype →
      d.comp = some (wd, xd) → e.comp = some (we, xe) →
      elemName k = some (last wd ++ "_" ++ last d.way ++ "_" ++ last we ++ "_" ++ last e.way) →
      Instance k "provide_port" d → Instance k "require_port" e → Connects k d e
  /-- between a port of a component and a port of the composition -/
  | delegation {k d e wd xd} : classOf k = some .DelegationSwConnector → d.comp = some (wd, xd) →
      e.comp = none →
      elemName k = some (if classOf e.port = some .ProvidePortPrototype
        then last wd ++ "_" ++ last d.way ++ "_" ++ last e.way
        else last e.way ++ "_" ++ last wd ++ "_" ++ last d.way) →
      Instance k "inner_port" d → RefersTo k "outer_port" e → Connects k d e
  /-- between two ports of the composition, the first as the provided one -/
  | passThrough {k d e} : classOf k = some .PassThroughSwConnector → d.comp = none → e.comp = none →
      elemName k = some (last d.way ++ "_" ++ last e.way) →
      RefersTo k "provide_port" d → RefersTo k "require_port" e → Connects k d e

/-- The ends can be joined: not both are ports of components, or one is provided and the other required. -/
def Joinable (d e : End) : Prop :=
  d.comp = none ∨ e.comp = none ∨
  (classOf d.port = some .ProvidePortPrototype ∧ classOf e.port = some .RequirePortPrototype) ∨
  (classOf d.port = some .RequirePortPrototype ∧ classOf e.port = some .ProvidePortPrototype)

/-- There is no slash in the names of the port and of its component. -/
def NoSlash (e : End) : Prop :=
  '/' ∉ (last e.way).toList ∧ ∀ way x, e.comp = some (way, x) → '/' ∉ (last way).toList

/-- The text leads to what is left of the object when it has been written and read. -/
def LeadsTo (ps : List Pkg) (way : List String) (x : Val Cls) : Prop :=
  ∃ y, find ps (absRef way) = .ok (some (.obj y)) ∧ classOf y = classOf x ∧ elemName y = elemName x ∧
    Same (remains x) y

/-- The references to the end lead there. -/
def Reached (ps : List Pkg) (e : End) : Prop :=
  LeadsTo ps e.way e.port ∧ ∀ way x, e.comp = some (way, x) → LeadsTo ps way x

/-- The composition with the connector behind its others, everything else unchanged. -/
def Extended (k v v' : Val Cls) : Prop :=
  classOf v' = classOf v ∧ field v' "connectors" = some (.list (members v "connectors" ++ [k])) ∧
    ∀ a, a ≠ "connectors" → field v' a = field v a

/-- The packages with the element at the end of a way exchanged, and everything else as it was. -/
inductive Exchanged (u w : Val Cls) : List String → List Pkg → List Pkg → Prop
  | element {n m : String} {h : List (String × Val Cls)} {before after : List (Val Cls)}
      {ps first rest : List Pkg} : nameOf h = some n → elemName u = some m →
      Exchanged u w [n, m] (first ++ .mk h (before ++ u :: after) ps :: rest)
        (first ++ .mk h (before ++ w :: after) ps :: rest)
  | inside {n : String} {way : List String} {h : List (String × Val Cls)} {es : List (Val Cls)}
      {ps ps' first rest : List Pkg} : nameOf h = some n → Exchanged u w way ps ps' →
      Exchanged u w (n :: way) (first ++ .mk h es ps :: rest) (first ++ .mk h es ps' :: rest)

end Verif.Codec.ConnectSpec
