import Verif.Codec.Package
import Verif.Codec.Spec
/-
What it means that packages and documents survive being written and read.
-/
namespace Verif.Codec.Spec
open Verif.Num

mutual
/-- A package as users build them: its own attributes and its elements are well formed, the
elements are of classes that may stand in packages, and no two elements or sub-packages of a
package have the same name (`Package.append` makes sure of that, see C01); the same holds for the
sub-packages. -/
def WellFormedPkg : Pkg → Prop
  | .mk head elements packages =>
    WellFormed .Package (.obj .Package head) ∧
    (∀ v ∈ elements, ∃ c, isARElement c = true ∧ WellFormed c v) ∧
    (elements.map elemName ++ packages.map Pkg.name).Nodup ∧
    WellFormedPkgs packages
def WellFormedPkgs : List Pkg → Prop
  | [] => True
  | p :: ps => WellFormedPkg p ∧ WellFormedPkgs ps
end

/-- A document of well-formed packages with different names.  Schema versions before 50, for which
exclusive areas of runnables are written differently, are left out here (see C63). -/
def WellFormedDoc (doc : Document) : Prop :=
  50 ≤ doc.schemaVersion ∧ WellFormedPkgs doc.packages ∧ (doc.packages.map Pkg.name).Nodup

mutual
/-- What is left of a package: of its own attributes and of every element exactly that which is
left when it is written and read by itself; all elements and sub-packages are left. -/
def remainsPkg : Pkg → Pkg
  | .mk head elements packages =>
    .mk (keptFields lossy firstOnly .Package head) (elements.map remains) (remainsPkgs packages)
def remainsPkgs : List Pkg → List Pkg
  | [] => []
  | p :: ps => remainsPkg p :: remainsPkgs ps
end

mutual
/-- The same tree of packages: the same packages and sub-packages in the same order, with the same
elements in the same order, where floats without fractional part may have become ints. -/
inductive SamePkg : Pkg → Pkg → Prop
  | mk {h h' : List (String × Val Cls)} {es es' : List (Val Cls)} {ps ps' : List Pkg} :
      SameFields h h' → SameList es es' → SamePkgs ps ps' → SamePkg (.mk h es ps) (.mk h' es' ps')
inductive SamePkgs : List Pkg → List Pkg → Prop
  | nil : SamePkgs [] []
  | cons {p p' : Pkg} {ps ps' : List Pkg} : SamePkg p p' → SamePkgs ps ps' →
      SamePkgs (p :: ps) (p' :: ps')
end

mutual
/-- No number in the package is a float without fractional part. -/
def noWholePkg : Pkg → Bool
  | .mk head elements packages =>
    noWholeFields head && elements.all noWhole && noWholePkgs packages
def noWholePkgs : List Pkg → Bool
  | [] => true
  | p :: ps => noWholePkg p && noWholePkgs ps
end

/-- The first of every name, in order. -/
def firstOfEach : List (Val Cls) → List (Val Cls)
  | [] => []
  | v :: vs => v :: (firstOfEach vs).filter fun w => elemName w ≠ elemName v

mutual
/-- A package as an ARXML file may contain it: as `WellFormedPkg`, but several elements of a
package may have the same name. -/
def LoosePkg : Pkg → Prop
  | .mk head elements packages =>
    WellFormed .Package (.obj .Package head) ∧
    (∀ v ∈ elements, ∃ c, isARElement c = true ∧ WellFormed c v) ∧
    (packages.map Pkg.name).Nodup ∧ (∀ p ∈ packages, p.name ∉ elements.map elemName) ∧
    LoosePkgs packages
def LoosePkgs : List Pkg → Prop
  | [] => True
  | p :: ps => LoosePkg p ∧ LoosePkgs ps
end

/-- A document of such packages. -/
def LooseDoc (doc : Document) : Prop :=
  50 ≤ doc.schemaVersion ∧ LoosePkgs doc.packages ∧ (doc.packages.map Pkg.name).Nodup

mutual
/-- No two elements of the package, or of a package below it, have the same name. -/
def DistinctPkg : Pkg → Prop
  | .mk _ elements packages => (elements.map elemName).Nodup ∧ DistinctPkgs packages
def DistinctPkgs : List Pkg → Prop
  | [] => True
  | p :: ps => DistinctPkg p ∧ DistinctPkgs ps
end

mutual
/-- The package without all elements whose name an element before them has, and likewise the
packages below it. -/
def firstsPkg : Pkg → Pkg
  | .mk head elements packages => .mk head (firstOfEach elements) (firstsPkgs packages)
def firstsPkgs : List Pkg → List Pkg
  | [] => []
  | p :: ps => firstsPkg p :: firstsPkgs ps
end

mutual
/-- A package whose own attributes and elements are well formed, with any names: elements and
sub-packages may have the same names. -/
def AnyPkg : Pkg → Prop
  | .mk head elements packages =>
    WellFormed .Package (.obj .Package head) ∧
    (∀ v ∈ elements, ∃ c, isARElement c = true ∧ WellFormed c v) ∧ AnyPkgs packages
def AnyPkgs : List Pkg → Prop
  | [] => True
  | p :: ps => AnyPkg p ∧ AnyPkgs ps
end

mutual
/-- No sub-package of the package has the name of another or of an element, nor does, with
`stop`, an element have the name of another; and likewise for the packages below it. -/
def ReadablePkg (stop : Bool) : Pkg → Prop
  | .mk _ elements packages =>
    (stop = true → (elements.map elemName).Nodup) ∧
    (packages.map Pkg.name).Nodup ∧ (∀ p ∈ packages, p.name ∉ elements.map elemName) ∧
    ReadablePkgs stop packages
def ReadablePkgs (stop : Bool) : List Pkg → Prop
  | [] => True
  | p :: ps => ReadablePkg stop p ∧ ReadablePkgs stop ps
end

/-- A tree of names. -/
inductive Outline where
  | package (name : Option String) (elements : List (Option Cls × Option String))
      (packages : List Outline)

/-- The class of an object. -/
def classOf : Val Cls → Option Cls
  | .obj c _ => some c
  | _ => none

mutual
/-- The names of the package, of its elements with their classes, and of its sub-packages, in
order. -/
def outline : Pkg → Outline
  | .mk head elements packages =>
    .package (nameOf head) (elements.map fun v => (classOf v, elemName v)) (outlines packages)
def outlines : List Pkg → List Outline
  | [] => []
  | p :: ps => outline p :: outlines ps
end

end Verif.Codec.Spec
