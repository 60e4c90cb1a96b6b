import Verif.Codec.Connect
import Verif.Codec.Older
import Verif.Codec.Append
import Verif.Codec.Make
/-
A document that is extended call by call, and saved and loaded in between (src/autosar/xml/element.py; all line
numbers without a file are of that file).  Simplification: items are values, so every item given to a call is an
object of its own that is in no package yet.
-/
namespace Verif.Codec.History
open Verif.Py Verif.Ref Verif.Codec Verif.Codec.Find
open Verif.Codec.TypeHeader (locate Place)
open Verif.Codec.Connect (createConnector change)

/-- What is put into packages: elements, and packages with what is in them. -/
inductive Thing where
  | element (v : Val Cls)
  | package (p : Pkg)

def Thing.name : Thing → Option String
  | .element v => elemName v
  | .package p => p.name

/-- The keys of `_collection_map` (2857, 2865).  Simplification: they are read from the objects, which are put in
under their names and keep them. -/
def names : Pkg → List (Option String)
  | .mk _ es ps => es.map elemName ++ ps.map Pkg.name

/-- The lists after `append` (2845-2867); unchanged if the name is there. -/
def put (x : Thing) : Pkg → Pkg
  | .mk h es ps =>
    if x.name ∈ names (.mk h es ps) then .mk h es ps
    else
      match x with
      | .element v => .mk h (es ++ [v]) ps
      | .package p => .mk h es (ps ++ [p])

/-- The packages after a change to the package at the end of a way of names. -/
def atPkg (f : Pkg → Pkg) : List String → List Pkg → List Pkg
  | [], ps => ps
  | n :: rest, ps => ps.map fun p =>
    match p with
    | .mk h es qs =>
      if (Pkg.mk h es qs).name = some n then
        match rest with
        | [] => f (.mk h es qs)
        | _ => .mk h es (atPkg f rest qs)
      else .mk h es qs

/-! ### Parts of elements -/

/-- The attribute to which `method(x)` of an object of the class adds, and what it adds; or the exception (the
methods and their branches are those of C60). -/
def choose (c : Cls) (m : String) (x : Val Cls) : Except PyErr (String × Val Cls) :=
  match (Append.methods c).find? fun r => r.name = m with
  | none => .error .attributeError
  | some r =>
    match r.branches.findSome? fun b => (b.take x).map fun y => (b.attr, y) with
    | none => .error r.error
    | some p => .ok p

/-- The object with `y` at the end of the list, as `Append.addTo` makes it.  Simplification: access points get no
other names; that only happens in runnables, which are not elements of packages. -/
def withPart (a : String) (y : Val Cls) : Val Cls → Val Cls
  | .obj c fs => .obj c (Append.canon (Schema.ctor c) fun f =>
      if f.attr = a then some (.list (members (.obj c fs) a ++ [y])) else dictGet fs f.attr)
  | v => v

/-- A call.  The package or composition is looked up in the document with the text. -/
inductive Call where
  /-- `document.find(ref).append(item)`, for packages -/
  | add (ref : String) (x : Thing)
  /-- `document.append(package)` -/
  | addRoot (p : Pkg)
  /-- `document.find(ref).create_connector(port_ref1, port_ref2, document)`, for compositions -/
  | connect (ref : String) (a b : PyVal)
  /-- `document.find(ref).method(x)`, for elements and their `append*` methods -/
  | part (ref m : String) (x : Val Cls)
  /-- `document.make_packages(ref)` -/
  | make (ref : String)

/-- What the user sees of a call. -/
inductive Outcome where
  /-- an exception -/
  | raised (e : PyErr)
  /-- `None` is returned -/
  | done
  /-- a connector is returned -/
  | connector (v : Val Cls)
  /-- a package of the name is returned -/
  | package (n : Option String)
  /-- there is nothing of the kind under the text, so the method is not called -/
  | missing

/-- The packages after the call, and its outcome: `Package.append` (2845-2867), `PackageCollection.append`
(3025-3036), `create_connector` (5422-5466), `find` (3038-3053), the `append*` methods listed in
`Append.methods`, and `make_packages` (`Make.make`). -/
def call (ps : List Pkg) : Call → List Pkg × Outcome
  | .add ref x =>
    match locate ps ref with
    | .error e => (ps, .raised e)
    | .ok (some (.pkg way p)) =>
      if x.name ∈ names p then (ps, .raised .duplicateElement)
      else (atPkg (put x) way ps, .done)
    | .ok _ => (ps, .missing)
  | .addRoot p =>
    if p.name ∈ ps.map Pkg.name then (ps, .raised .valueError)
    else (ps ++ [p], .done)
  | .connect ref a b =>
    match locate ps ref with
    | .error e => (ps, .raised e)
    | .ok (some (.element way (.obj .CompositionSwComponentType fs))) =>
      match createConnector ps way (.obj .CompositionSwComponentType fs) a b with
      | (ps', .ok k) => (ps', .connector k)
      | (ps', .error e) => (ps', .raised e)
    | .ok _ => (ps, .missing)
  | .part ref m x =>
    match locate ps ref with
    | .error e => (ps, .raised e)
    | .ok (some (.element way (.obj c _))) =>
      match choose c m x with
      | .error e => (ps, .raised e)
      | .ok (a, y) => (change (withPart a y) way ps, .done)
    | .ok _ => (ps, .missing)
  | .make ref =>
    match Make.make ps ref with
    | (ps', .ok p) => (ps', .package p.name)
    | (ps', .error e) => (ps', .raised e)

/-- A call, or the document is written (`skip`: without root attributes) and what is read from the text is used
from there on. -/
inductive Step where
  | call (c : Call)
  | save (skip stop : Bool) (version : Nat)

/-- The document after the steps and the outcomes of the calls; an exception if saving or loading fails
(writer.py 401-407, reader.py 350-378). -/
def run (doc : Document) : List Step → Except PyErr (Document × List Outcome)
  | [] => .ok (doc, [])
  | .call c :: rest =>
    match run ⟨doc.schemaVersion, (call doc.packages c).1⟩ rest with
    | .error e => .error e
    | .ok (d, os) => .ok (d, (call doc.packages c).2 :: os)
  | .save skip stop version :: rest =>
    match Older.writeDoc skip doc with
    | .error e => .error e
    | .ok text =>
      match Older.readDoc stop version text with
      | .error e => .error e
      | .ok doc' => run doc' rest

end Verif.Codec.History
