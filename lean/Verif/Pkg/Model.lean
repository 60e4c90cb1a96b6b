import Verif.Py
/-
Model of the object graph built from `PackageCollection` (workspace/document),
`Package`, package elements and the named members of elements
(`src/autosar/xml/element.py`).  Object identity matters, so objects live in a
heap.
-/
namespace Verif.Pkg
open Verif.Py

/-- Object identity. -/
scoped notation "Oid" => Nat

/-- Package-element classes, grouped by the `find` method they have:
`plain` has none; `implType` = ImplementationDataType (element.py 1996),
`modeGroup` = ModeDeclarationGroup (3227), `swc` = SwComponentType (4917),
`composition` = CompositionSwComponentType (5391). -/
inductive ElemKind where
  | plain | implType | modeGroup | swc | composition
  deriving DecidableEq, Repr

/-- Identifiable members stored inside an element. -/
inductive MemberKind where
  | implElem | modeDecl | modeTrans | port | component | connector
  deriving DecidableEq, Repr

/-- Object classes: `collection` = PackageCollection and its subclasses
Workspace/Document (element.py 3010), `package` = Package (2834),
`element` = ARElement subclasses (293), `member` = other Identifiable. -/
inductive Cls where
  | collection | package
  | element (k : ElemKind)
  | member (k : MemberKind)
  deriving DecidableEq, Repr

/-- One object.  `packages`, `elements`, `map` are `Package.packages`,
`Package.elements`, `Package._collection_map` (element.py 2839-2843), resp.
`PackageCollection.packages`, `PackageCollection._package_dict` (3015-3020).
`slotA/slotB/slotC` hold members: sub_elements (A) of ImplementationDataType;
mode_declarations (A), mode_transitions (B) of ModeDeclarationGroup; components
(A), connectors (B), ports (C) of software components.
Simplification: names never change after construction. -/
structure Obj where
  cls : Cls
  name : String
  parent : Option Oid := none
  packages : List Oid := []
  elements : List Oid := []
  map : Dict Oid := []
  slotA : List Oid := []
  slotB : List Oid := []
  slotC : List Oid := []

/-- The heap: `next` is the first unused identity. -/
structure Heap where
  next : Nat
  obj : Oid → Obj

/-- Record for unused identities. -/
def Obj.blank : Obj := { cls := .member .port, name := "" }

/-- The heap before any call. -/
def Heap.empty : Heap := { next := 0, obj := fun _ => Obj.blank }

/-- Attribute assignment on object `i`. -/
def Heap.set (h : Heap) (i : Oid) (o : Obj) : Heap :=
  { h with obj := fun j => if j = i then o else h.obj j }

/-- A constructor call: `Package(name)`, `PackageCollection()`, an element or a
member constructor; the new object has no parent (element.py 183-185, 3017). -/
def Heap.alloc (h : Heap) (cls : Cls) (name : String) : Heap :=
  { next := h.next + 1
    obj := fun j => if j = h.next then { cls := cls, name := name } else h.obj j }

/-- `x.parent = p`. -/
def setParent (h : Heap) (x : Oid) (p : Oid) : Heap :=
  h.set x { h.obj x with parent := some p }

/-- `self.packages.append(x)`. -/
def pushPackage (h : Heap) (c x : Oid) : Heap :=
  h.set c { h.obj c with packages := (h.obj c).packages ++ [x] }

/-- `self.elements.append(x)`. -/
def pushElement (h : Heap) (c x : Oid) : Heap :=
  h.set c { h.obj c with elements := (h.obj c).elements ++ [x] }

/-- `self._collection_map[n] = x` / `self._package_dict[n] = x`. -/
def mapSet (h : Heap) (c : Oid) (n : String) (x : Oid) : Heap :=
  h.set c { h.obj c with map := dictSet (h.obj c).map n x }

/-- `Package.append` (element.py 2845-2867): duplicate check, then parent, list,
map, in the order of the source. -/
def packageAppend (h : Heap) (c x : Oid) : Heap × Except PyErr Unit :=
  match (h.obj x).cls with
  | .package =>
    if dictHas (h.obj c).map (h.obj x).name then (h, .error .duplicateElement)
    else
      let h1 := setParent h x c
      let h2 := pushPackage h1 c x
      let h3 := mapSet h2 c (h.obj x).name x
      (h3, .ok ())
  | .element _ =>
    if dictHas (h.obj c).map (h.obj x).name then (h, .error .duplicateElement)
    else
      let h1 := setParent h x c
      let h2 := pushElement h1 c x
      let h3 := mapSet h2 c (h.obj x).name x
      (h3, .ok ())
  | _ => (h, .error .typeError)

/-- `PackageCollection.append` (element.py 3025-3036): anything but a Package is
silently ignored. -/
def collectionAppend (h : Heap) (c x : Oid) : Heap × Except PyErr Unit :=
  match (h.obj x).cls with
  | .package =>
    if dictHas (h.obj c).map (h.obj x).name then (h, .error .valueError)
    else
      let h1 := setParent h x c
      let h2 := pushPackage h1 c x
      let h3 := mapSet h2 c (h.obj x).name x
      (h3, .ok ())
  | _ => (h, .ok ())

/-- `container.append(x)`, by class of the container. -/
def append (h : Heap) (c x : Oid) : Heap × Except PyErr Unit :=
  match (h.obj c).cls with
  | .package => packageAppend h c x
  | .collection => collectionAppend h c x
  | _ => (h, .error .attributeError)

/-- What `create_package` hands back: an object, or an exception *instance*
returned as an ordinary value (element.py 2890, 3067 say `return ValueError(..)`). -/
inductive Returned where
  | obj (i : Oid)
  | excValue (e : PyErr)
  deriving DecidableEq, Repr

/-- `Package.create_package` (element.py 2885-2895). -/
def packageCreate (h : Heap) (c : Oid) (name : String) : Heap × Except PyErr Returned :=
  if dictHas (h.obj c).map name then (h, .ok (.excValue .valueError))
  else
    let x := h.next
    let h1 := h.alloc .package name
    let h2 := mapSet h1 c name x
    let h3 := pushPackage h2 c x
    let h4 := setParent h3 x c
    (h4, .ok (.obj x))

/-- `PackageCollection.create_package` (element.py 3061-3070). -/
def collectionCreate (h : Heap) (c : Oid) (name : String) : Heap × Except PyErr Returned :=
  if dictHas (h.obj c).map name then (h, .ok (.excValue .valueError))
  else
    let x := h.next
    let h1 := h.alloc .package name
    match collectionAppend h1 c x with
    | (h2, .ok ()) => (h2, .ok (.obj x))
    | (h2, .error e) => (h2, .error e)

/-- `container.create_package(name)`, by class. -/
def createPackage (h : Heap) (c : Oid) (name : String) : Heap × Except PyErr Returned :=
  match (h.obj c).cls with
  | .package => packageCreate h c name
  | .collection => collectionCreate h c name
  | _ => (h, .error .attributeError)

/-- `Package.make_packages` (element.py 2869-2883).  `fuel` bounds the recursion
depth; `length + 1` always suffices (`packageMake_unfold`). -/
def packageMake : Nat → Heap → Oid → List Char → Heap × Except PyErr Oid
  | 0, h, _, _ => (h, .error .recursionError)
  | fuel + 1, h, c, ref =>
    if startsWithL '/' ref then (h, .error .valueError)
    else
      let parts := partL '/' ref
      let name := String.ofList parts.1
      match dictGet (h.obj c).map name with
      | none =>
        match packageCreate h c name with
        | (h1, .ok (.obj x)) =>
          if parts.2 ≠ [] then packageMake fuel h1 x parts.2 else (h1, .ok x)
        | (h1, .ok (.excValue _)) => (h1, .error .attributeError)
        | (h1, .error e) => (h1, .error e)
      | some x =>
        if (h.obj x).cls = .package then
          if parts.2 ≠ [] then packageMake fuel h x parts.2 else (h, .ok x)
        else (h, .error .keyError)

/-- One round of the loop in `PackageCollection.make_packages`
(element.py 3079-3088). -/
def collectionMake1 (h : Heap) (c : Oid) (ref : List Char) : Heap × Except PyErr Oid :=
  let parts := partL '/' (stripLead '/' ref)
  let name := String.ofList parts.1
  match dictGet (h.obj c).map name with
  | none =>
    match collectionCreate h c name with
    | (h1, .ok (.obj x)) =>
      if parts.2 ≠ [] then packageMake (parts.2.length + 1) h1 x parts.2 else (h1, .ok x)
    | (h1, .ok (.excValue _)) => (h1, .error .attributeError)
    | (h1, .error e) => (h1, .error e)
  | some x =>
    if parts.2 ≠ [] then packageMake (parts.2.length + 1) h x parts.2 else (h, .ok x)

/-- `PackageCollection.make_packages(*refs)` (element.py 3071-3088), the list
`result`; a single reference is unwrapped by the caller. -/
def collectionMake (h : Heap) (c : Oid) : List String → Heap × Except PyErr (List Oid)
  | [] => (h, .ok [])
  | r :: rs =>
    match collectionMake1 h c r.toList with
    | (h1, .ok x) =>
      match collectionMake h1 c rs with
      | (h2, .ok xs) => (h2, .ok (x :: xs))
      | (h2, .error e) => (h2, .error e)
    | (h1, .error e) => (h1, .error e)

/-- `package.make_packages(ref)`. -/
def packageMakePackages (h : Heap) (c : Oid) (ref : String) : Heap × Except PyErr Oid :=
  packageMake (ref.toList.length + 1) h c ref.toList

/-- First object of a list with the given name (`ARObject._find_by_name`,
xml/base.py; the loops at element.py 3231-3237, 4921-4925, 5395-5401). -/
def firstNamed (h : Heap) (l : List Oid) (n : String) : Option Oid :=
  l.find? (fun i => (h.obj i).name = n)

/-- `item.find(ref)` for package elements, by class (element.py 1996-2001,
3227-3237, 4917-4925, 5391-5402).  Classes without `find` raise AttributeError. -/
def elemFind (h : Heap) (e : Oid) (k : ElemKind) (ref : List Char) : Except PyErr (Option Oid) :=
  match k with
  | .plain => .error .attributeError
  | .implType =>
    if '/' ∈ ref then .error .assertionError
    else .ok (firstNamed h (h.obj e).slotA (String.ofList ref))
  | .modeGroup =>
    match firstNamed h (h.obj e).slotA (String.ofList ref) with
    | some i => .ok (some i)
    | none => .ok (firstNamed h (h.obj e).slotB (String.ofList ref))
  | .swc => .ok (firstNamed h (h.obj e).slotC (String.ofList (partL '/' ref).1))
  | .composition =>
    match firstNamed h (h.obj e).slotA (String.ofList (partL '/' ref).1) with
    | some i => .ok (some i)
    | none =>
      match firstNamed h (h.obj e).slotB (String.ofList (partL '/' ref).1) with
      | some i => .ok (some i)
      | none => .ok (firstNamed h (h.obj e).slotC (String.ofList (partL '/' ref).1))

/-- `Package.find` (element.py 2897-2908) and `PackageCollection.find` on a
string (3038-3053), which have the same body; on other objects the class's own
`find`.  `fuel` bounds the recursion depth; `length + 1` always suffices
(`find_unfold`). -/
def findAux : Nat → Heap → Oid → List Char → Except PyErr (Option Oid)
  | 0, _, _, _ => .error .recursionError
  | fuel + 1, h, c, ref =>
    match (h.obj c).cls with
    | .collection | .package =>
      let parts := partL '/' (stripLead '/' ref)
      match dictGet (h.obj c).map (String.ofList parts.1) with
      | none => .ok none
      | some x => if parts.2 ≠ [] then findAux fuel h x parts.2 else .ok (some x)
    | .element k => elemFind h c k ref
    | .member _ => .error .attributeError

/-- `obj.find(ref)`. -/
def find (h : Heap) (c : Oid) (ref : String) : Except PyErr (Option Oid) :=
  findAux (ref.toList.length + 1) h c ref.toList

/-- `update_ref_parts` (element.py 258-266 for Identifiable, 3055-3059 for
PackageCollection): the parts appended.  Returns `none` when `fuel` calls do not
suffice; a parent cycle never returns. -/
def updateRefParts : Nat → Heap → Oid → Option (List (Option String))
  | 0, _, _ => none
  | fuel + 1, h, x =>
    match (h.obj x).cls with
    | .collection => some [some ""]
    | _ =>
      match (h.obj x).parent with
      | none => some [some (h.obj x).name, none]
      | some p => (updateRefParts fuel h p).map (fun ps => some (h.obj x).name :: ps)

/-- `_calc_ref_string` (element.py 268-280), which every `ref()` wraps. -/
def calcRef (fuel : Nat) (h : Heap) (x : Oid) : Option (Option String) :=
  match (h.obj x).parent with
  | none => some none
  | some p =>
    match updateRefParts fuel h p with
    | none => none
    | some ps =>
      let parts := some (h.obj x).name :: ps
      match parts.getLast? with
      | some none => some none
      | _ => some (some (join '/' (parts.reverse.map (fun o => o.getD ""))))

/-- `x.ref()` returns `r` (`none` models Python's None). -/
def RefReturns (h : Heap) (x : Oid) (r : Option String) : Prop :=
  ∃ fuel, calcRef fuel h x = some r

/-- `Referrable.root_collection` (element.py 194-205): follow parents to the end;
the last object if it is a collection, otherwise None.  `none` when `fuel` steps
do not suffice. -/
def rootCollection : Nat → Heap → Oid → Option (Option Oid)
  | 0, _, _ => none
  | fuel + 1, h, x =>
    match (h.obj x).parent with
    | some p => rootCollection fuel h p
    | none => if (h.obj x).cls = .collection then some (some x) else some none

/-- `x.root_collection()` returns `r`. -/
def RootReturns (h : Heap) (x : Oid) (r : Option Oid) : Prop :=
  ∃ fuel, rootCollection fuel h x = some r

/-- The `append_*` methods for members of elements: element.py 1978-1985
(sub-element: parent untouched), 3240-3249, 3262-3271 (a transition becomes its
own parent), 4879-4888, 5371-5379, 5381-5389.  None of them checks names. -/
def addMember (h : Heap) (e m : Oid) : Heap × Except PyErr Unit :=
  match (h.obj e).cls, (h.obj m).cls with
  | .element .implType, .member .implElem =>
    (h.set e { h.obj e with slotA := (h.obj e).slotA ++ [m] }, .ok ())
  | .element .modeGroup, .member .modeDecl =>
    let h1 := setParent h m e
    (h1.set e { h1.obj e with slotA := (h1.obj e).slotA ++ [m] }, .ok ())
  | .element .modeGroup, .member .modeTrans =>
    let h1 := setParent h m m
    (h1.set e { h1.obj e with slotB := (h1.obj e).slotB ++ [m] }, .ok ())
  | .element .composition, .member .component =>
    let h1 := setParent h m e
    (h1.set e { h1.obj e with slotA := (h1.obj e).slotA ++ [m] }, .ok ())
  | .element .composition, .member .connector =>
    let h1 := setParent h m e
    (h1.set e { h1.obj e with slotB := (h1.obj e).slotB ++ [m] }, .ok ())
  | .element .composition, .member .port =>
    let h1 := setParent h m e
    (h1.set e { h1.obj e with slotC := (h1.obj e).slotC ++ [m] }, .ok ())
  | .element .swc, .member .port =>
    let h1 := setParent h m e
    (h1.set e { h1.obj e with slotC := (h1.obj e).slotC ++ [m] }, .ok ())
  | _, _ => (h, .error .typeError)

/-- The public calls of this part of the API. -/
inductive Op where
  | new (cls : Cls) (name : String)
  | append (c x : Oid)
  | addMember (e m : Oid)
  | createPackage (c : Oid) (name : String)
  | packageMake (c : Oid) (ref : String)
  | collectionMake (c : Oid) (refs : List String)
  deriving Repr

/-- Identities mentioned by a call must exist. -/
def Op.valid (h : Heap) : Op → Prop
  | .new _ _ => True
  | .append c x => c < h.next ∧ x < h.next
  | .addMember e m => e < h.next ∧ m < h.next
  | .createPackage c _ => c < h.next
  | .packageMake c _ => c < h.next ∧ (h.obj c).cls = .package
  | .collectionMake c _ => c < h.next ∧ (h.obj c).cls = .collection

instance (h : Heap) (op : Op) : Decidable (op.valid h) := by
  cases op <;> unfold Op.valid <;> infer_instance

/-- Effect of a call on the heap, whether it raises or not. -/
def step (h : Heap) (op : Op) : Heap :=
  if op.valid h then
    match op with
    | .new cls name => h.alloc cls name
    | .append c x => (append h c x).1
    | .addMember e m => (addMember h e m).1
    | .createPackage c name => (createPackage h c name).1
    | .packageMake c ref => (packageMakePackages h c ref).1
    | .collectionMake c refs => (collectionMake h c refs).1
  else h

/-- A history: any sequence of calls, exceptions being caught by the caller. -/
def run (h : Heap) (ops : List Op) : Heap := ops.foldl step h

end Verif.Pkg
