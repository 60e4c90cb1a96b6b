import Verif.Ref.Model
/-
Connectors of a composition: `CompositionSwComponentType.create_connector`
(src/autosar/xml/element.py 5327-5549).
-/
namespace Verif.Swc
open Verif.Py Verif.Ref

/-- `ProvidePortPrototype`, `RequirePortPrototype`, `PRPortPrototype` (element.py 4698-4849): three
classes, none a subclass of another. -/
inductive PortKind where
  | p | r | pr
deriving DecidableEq, Repr

/-- A port prototype: class and short-name. -/
structure Port where
  kind : PortKind
  name : String
deriving DecidableEq, Repr

/-- A `SwComponentType` as `workspace.find` returns it: its name, its `ref()`, its ports, and for a
composition the names of its component prototypes and connectors, which `find` looks at first
(element.py 4917-4925, 5391-5402). -/
structure CompType where
  name : String
  ref : Option String
  inner : List String
  ports : List Port
deriving DecidableEq, Repr

/-- What `workspace.find(type_ref)` can give (element.py 5481-5487). -/
inductive Found where
  | swc (t : CompType)
  | other
deriving DecidableEq, Repr

/-- `workspace.find` on texts. -/
abbrev Env := String → Except PyErr (Option Found)

/-- `SwComponentPrototype` (element.py 5204-5216). -/
structure Proto where
  name : String
  typeRef : Option String
deriving DecidableEq, Repr

/-- `PortPrototypeRef`: text and destination (element.py 4724, 4774, 4830). -/
structure PortRef where
  value : String
  dest : PortKind
deriving DecidableEq, Repr

/-- `PortInCompositionTypeInstanceRef` (element.py 5227-5243). -/
structure InstRef where
  component : Option String
  port : Option PortRef
deriving DecidableEq, Repr

/-- What a connector joins (element.py 5259-5324). -/
inductive Joint where
  | assembly (provider requester : InstRef)
  | delegation (inner : InstRef) (outer : Option PortRef)
  | passThrough (provide require : Option PortRef)
deriving DecidableEq, Repr

/-- A connector: short-name, what it joins, and whether its `parent` is set. -/
structure Connector where
  name : String
  joint : Joint
  hasParent : Bool
deriving DecidableEq, Repr

/-- `CompositionSwComponentType` (element.py 5327-5359); `ref` is its own `ref()`. -/
structure Composition where
  name : String
  ref : Option String
  comps : List Proto
  conns : List Connector
  ports : List Port
deriving DecidableEq, Repr

/-- `ref()` of something whose parent has the given `ref()` (`_calc_ref_string`, element.py
268-280): the parent's text, a slash and the name; None while the parent is detached. -/
def below_ (parent : Option String) (name : String) : Option String :=
  parent.map fun r => r ++ "/" ++ name

/-- `port.ref()` (element.py 4724-4732, 4774-4782, 4830-4838) -/
def portRef (owner : Option String) (p : Port) : Option PortRef :=
  (below_ owner p.name).map fun r => ⟨r, p.kind⟩

/-- What `find` of a component type returns, as far as it matters: a port or something else. -/
inductive Hit where
  | port (p : Port)
  | other
deriving DecidableEq, Repr

/-- `find` (element.py 4917-4925, 5391-5402): the text before the first slash is compared with
the names of inner components and connectors, then with those of the ports. -/
def findIn (inner : List String) (ports : List Port) (text : List Char) : Option Hit :=
  let n := String.ofList (partL '/' text).1
  if n ∈ inner then some .other
  else (ports.find? fun p => p.name = n).map .port

/-- Names that hide ports in the composition itself. -/
def Composition.inner (c : Composition) : List String :=
  c.comps.map (·.name) ++ c.conns.map (·.name)

/-- `self.find(text)` -/
def Composition.find (c : Composition) (text : List Char) : Option Hit :=
  findIn c.inner c.ports text

/-- A port together with the inner component it was reached through, if any; the port's owner is
the inner component's type or the composition. -/
structure Place where
  port : Port
  owner : Option String
  comp : Option Proto
deriving DecidableEq, Repr

/-- `_analyze_port_ref` (element.py 5468-5504).  `ok none` is the pair `(None, None)` returned when
no component has the given name. -/
def analyze (env : Env) (c : Composition) (v : PyVal) : Except PyErr (Option Place) :=
  match splitRef v with
  | .error e => .error e
  | .ok Option.none => .error .typeError
  | .ok (some [pn]) =>
    match c.find pn with
    | some (.port p) => .ok (some ⟨p, c.ref, Option.none⟩)
    | _ => .error .valueError
  | .ok (some [cn, pn]) =>
    match c.comps.find? fun e => e.name = String.ofList cn with
    | Option.none => .ok Option.none
    | some elem =>
      match env (elem.typeRef.getD "None") with
      | .error e => .error e
      | .ok Option.none => .error .valueError
      | .ok (some .other) => .error .valueError
      | .ok (some (.swc t)) =>
        match findIn t.inner t.ports pn with
        | some (.port p) => .ok (some ⟨p, t.ref, some elem⟩)
        | _ => .error .valueError
  | .ok (some _) => .error .valueError

/-- `if self.find(name): raise ValueError` and the append (element.py 5519-5524, 5536-5539,
5546-5549).  Only assembly connectors go through `append_connector`, which sets the parent; the
other two are appended to the list directly. -/
def addConnector (c : Composition) (k : Connector) : Composition × Except PyErr Connector :=
  if (c.find k.name.toList).isSome then (c, .error .valueError)
  else ({ c with conns := c.conns ++ [k] }, .ok k)

/-- `PortInCompositionTypeInstanceRef(component.ref(), port.ref())` -/
def instRef (c : Composition) (comp : Proto) (p : Port) (owner : Option String) : InstRef :=
  ⟨below_ c.ref comp.name, portRef owner p⟩

/-- `_create_assembly_connector` (element.py 5506-5524) -/
def createAssembly (c : Composition) (prov : Place) (provComp : Proto) (req : Place)
    (reqComp : Proto) : Composition × Except PyErr Connector :=
  addConnector c
    { name := join '_' [provComp.name, prov.port.name, reqComp.name, req.port.name],
      joint := .assembly (instRef c provComp prov.port prov.owner) (instRef c reqComp req.port req.owner),
      hasParent := true }

/-- `_create_delegation_connector` (element.py 5526-5539) -/
def createDelegation (c : Composition) (inner : Place) (innerComp : Proto) (outer : Place) :
    Composition × Except PyErr Connector :=
  addConnector c
    { name :=
        if outer.port.kind = .p then join '_' [innerComp.name, inner.port.name, outer.port.name]
        else join '_' [outer.port.name, innerComp.name, inner.port.name],
      joint := .delegation (instRef c innerComp inner.port inner.owner) (portRef outer.owner outer.port),
      hasParent := false }

/-- `_create_pass_through_connector` (element.py 5541-5549) -/
def createPassThrough (c : Composition) (a b : Place) : Composition × Except PyErr Connector :=
  addConnector c
    { name := join '_' [a.port.name, b.port.name],
      joint := .passThrough (portRef a.owner a.port) (portRef b.owner b.port),
      hasParent := false }

/-- The choice by where the ports live (element.py 5437-5466).  A missing port ends in
`None.name`, an AttributeError. -/
def joinPlaces (c : Composition) (a b : Option Place) : Composition × Except PyErr Connector :=
  match a, b with
  | some x, some y =>
    match x.comp, y.comp with
    | Option.none, Option.none => createPassThrough c x y
    | Option.none, some cy => createDelegation c y cy x
    | some cx, Option.none => createDelegation c x cx y
    | some cx, some cy =>
      match x.port.kind, y.port.kind with
      | .r, .p => createAssembly c y cy x cx
      | .p, .r => createAssembly c x cx y cy
      | _, _ => (c, .error .valueError)
  | _, _ => (c, .error .attributeError)

/-- `create_connector` (element.py 5422-5466). -/
def createConnector (env : Env) (c : Composition) (v1 v2 : PyVal) :
    Composition × Except PyErr Connector :=
  match analyze env c v1 with
  | .error e => (c, .error e)
  | .ok a =>
    match analyze env c v2 with
    | .error e => (c, .error e)
    | .ok b => joinPlaces c a b

/-- Calls on one composition, exceptions being caught by the caller. -/
inductive CompOp where
  | connect (v1 v2 : PyVal)
  | component (name : String) (typeRef : Option String)
  | port (kind : PortKind) (name : String)

/-- `create_component_prototype` (element.py 5404-5420) and the `create_*_port` methods append
without looking at existing names. -/
def compStep (env : Env) (c : Composition) : CompOp → Composition
  | .connect v1 v2 => (createConnector env c v1 v2).1
  | .component n t => { c with comps := c.comps ++ [⟨n, t⟩] }
  | .port k n => { c with ports := c.ports ++ [⟨k, n⟩] }

def compRun (env : Env) (c : Composition) (ops : List CompOp) : Composition :=
  ops.foldl (compStep env) c

end Verif.Swc

/-! ### Specification -/
namespace Verif.Swc.Spec
open Verif.Py Verif.Ref Verif.Swc

/-- One end of a connection: a port of the composition itself, or a port of the type of one of its
components. -/
inductive End where
  | outer (p : Port)
  | inner (comp : Proto) (type : CompType) (p : Port)
deriving DecidableEq, Repr

def End.port : End → Port
  | .outer p => p
  | .inner _ _ p => p

/-- The text names this end: "port" or "component/port", an initial slash being immaterial. -/
inductive Names (env : Env) (c : Composition) : String → End → Prop
  | outer (s : String) (p : Port) : p ∈ c.ports → s.toList = p.name.toList ∨ s.toList = '/' :: p.name.toList →
      '/' ∉ p.name.toList → Names env c s (.outer p)
  | inner (s : String) (e : Proto) (t : CompType) (p : Port) : e ∈ c.comps →
      env (e.typeRef.getD "None") = .ok (some (.swc t)) → p ∈ t.ports →
      s.toList = e.name.toList ++ '/' :: p.name.toList ∨ s.toList = '/' :: (e.name.toList ++ '/' :: p.name.toList) →
      '/' ∉ e.name.toList → '/' ∉ p.name.toList → Names env c s (.inner e t p)

/-- The reference to a port below its owner's reference; a detached owner has none. -/
def refTo (owner : Option String) (p : Port) : Option PortRef :=
  match owner with
  | some o => some ⟨o ++ "/" ++ p.name, p.kind⟩
  | none => none

/-- The instance reference to a port of a component. -/
def instOf (c : Composition) (e : Proto) (t : CompType) (p : Port) : InstRef :=
  ⟨match c.ref with
    | some o => some (o ++ "/" ++ e.name)
    | none => none,
   refTo t.ref p⟩

/-- The connector joining two ends, with its name: an assembly between two inner ports of opposite
direction (provider and requester told apart by the ports), a delegation between an inner and an
outer port, a pass-through between two outer ports. -/
inductive Joins (c : Composition) : End → End → String → Joint → Prop
  | assembly (e1 t1 p1 e2 t2 p2) : p1.kind = .p → p2.kind = .r →
      Joins c (.inner e1 t1 p1) (.inner e2 t2 p2)
        (e1.name ++ "_" ++ p1.name ++ "_" ++ e2.name ++ "_" ++ p2.name)
        (.assembly (instOf c e1 t1 p1) (instOf c e2 t2 p2))
  | assembly' (e1 t1 p1 e2 t2 p2) : p1.kind = .r → p2.kind = .p →
      Joins c (.inner e1 t1 p1) (.inner e2 t2 p2)
        (e2.name ++ "_" ++ p2.name ++ "_" ++ e1.name ++ "_" ++ p1.name)
        (.assembly (instOf c e2 t2 p2) (instOf c e1 t1 p1))
  | delegation (e t p q) : Joins c (.inner e t p) (.outer q)
        (if q.kind = .p then e.name ++ "_" ++ p.name ++ "_" ++ q.name
         else q.name ++ "_" ++ e.name ++ "_" ++ p.name)
        (.delegation (instOf c e t p) (refTo c.ref q))
  | delegation' (e t p q) : Joins c (.outer q) (.inner e t p)
        (if q.kind = .p then e.name ++ "_" ++ p.name ++ "_" ++ q.name
         else q.name ++ "_" ++ e.name ++ "_" ++ p.name)
        (.delegation (instOf c e t p) (refTo c.ref q))
  | passThrough (p q) : Joins c (.outer p) (.outer q) (p.name ++ "_" ++ q.name)
        (.passThrough (refTo c.ref p) (refTo c.ref q))

/-- The directions a connection should have: a provider and a requester inside, the same direction
inside and outside, a provided and a required port outside. -/
def Directed : End → End → Prop
  | .inner _ _ p, .inner _ _ q => (p.kind = .p ∧ q.kind = .r) ∨ (p.kind = .r ∧ q.kind = .p)
  | .inner _ _ p, .outer q => p.kind = q.kind
  | .outer p, .inner _ _ q => p.kind = q.kind
  | .outer p, .outer q => p.kind = .p ∧ q.kind = .r

/-- All short-names in a composition differ. -/
def WellNamed (inner : List String) (ports : List Port) : Prop := (inner ++ ports.map (·.name)).Nodup

end Verif.Swc.Spec
