import Verif.Codec.Package
/-
`find` on packages and documents as the reader builds them (src/autosar/xml/element.py; all line
numbers are of that file).  C03–C07 are about the same methods on packages that change; here packages
and elements are values.
-/
namespace Verif.Codec.Find
open Verif.Py Verif.Codec

/-- What `find` may return. -/
inductive Item where
  | pkg (p : Pkg)
  | obj (v : Val Cls)

/-- The objects in an attribute that is a list. -/
def members : Val Cls → String → List (Val Cls)
  | .obj _ fs, a =>
    match dictGet fs a with
    | some (.list l) => l
    | _ => []
  | _, _ => []

/-- The first object of the name (`_find_by_name`, base.py 156-164; the loops at 3231-3236, 4922-4924,
5396-5401). -/
def named (l : List (Val Cls)) (n : String) : Option (Val Cls) :=
  l.find? fun x => elemName x = some n

/-- `find` of an element (1996-2001, 3227-3237, 4917-4925, 5391-5402).  Other classes of elements have
no such method. -/
def elemFind (v : Val Cls) (ref : List Char) : Except PyErr (Option (Val Cls)) :=
  match v with
  | .obj .ImplementationDataType _ =>
    if '/' ∈ ref then .error .assertionError
    else .ok (named (members v "sub_elements") (String.ofList ref))
  | .obj .ModeDeclarationGroup _ =>
    match named (members v "mode_declarations") (String.ofList ref) with
    | some x => .ok (some x)
    | none => .ok (named (members v "mode_transitions") (String.ofList ref))
  | .obj .ApplicationSoftwareComponentType _ =>
    .ok (named (members v "ports") (String.ofList (partL '/' ref).1))
  | .obj .CompositionSwComponentType _ =>
    match named (members v "components") (String.ofList (partL '/' ref).1) with
    | some x => .ok (some x)
    | none =>
      match named (members v "connectors") (String.ofList (partL '/' ref).1) with
      | some x => .ok (some x)
      | none => .ok (named (members v "ports") (String.ofList (partL '/' ref).1))
  | _ => .error .attributeError

mutual
/-- `Package.find` (2897-2908).  Simplification: the dictionary of names is left out; since no two
elements or packages in a package have the same name (C01), it leads to the first of the name. -/
def findPkg : Pkg → List Char → Except PyErr (Option Item)
  | .mk _ es ps, ref =>
    match named es (String.ofList (partL '/' (stripLead '/' ref)).1) with
    | some v =>
      if (partL '/' (stripLead '/' ref)).2 ≠ [] then
        (elemFind v (partL '/' (stripLead '/' ref)).2).map fun r => r.map .obj
      else .ok (some (.obj v))
    | none => findPkgs ps (partL '/' (stripLead '/' ref))
/-- Packages: the one of the name, or what is below it (2902-2908, 3048-3053). -/
def findPkgs : List Pkg → List Char × List Char → Except PyErr (Option Item)
  | [], _ => .ok none
  | p :: ps, parts =>
    if p.name = some (String.ofList parts.1) then
      if parts.2 ≠ [] then findPkg p parts.2 else .ok (some (.pkg p))
    else findPkgs ps parts
end

/-- `PackageCollection.find` (3038-3053) on a string, for documents and workspaces. -/
def find (ps : List Pkg) (ref : String) : Except PyErr (Option Item) :=
  findPkgs ps (partL '/' (stripLead '/' ref.toList))

end Verif.Codec.Find
