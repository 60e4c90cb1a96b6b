import Verif.Codec.Find
import Verif.Codec.PackageSpec
/-
Where packages, elements and parts of elements are (C61).
-/
namespace Verif.Codec.FindSpec
open Verif.Codec Verif.Codec.Spec Verif.Codec.Find

/-- The parts of elements that can be found by name. -/
def searched : Cls → List String
  | .ImplementationDataType => ["sub_elements"]
  | .ModeDeclarationGroup => ["mode_declarations", "mode_transitions"]
  | .ApplicationSoftwareComponentType => ["ports"]
  | .CompositionSwComponentType => ["components", "connectors", "ports"]
  | _ => []

/-- The parts of an element that can be found, of all kinds. -/
def findable : Val Cls → List (Val Cls)
  | .obj c fs => (searched c).flatMap (members (.obj c fs))
  | _ => []

/-- The package at the end of a way of names. -/
inductive PackageAt : List Pkg → List String → Pkg → Prop
  | here {ps : List Pkg} {p : Pkg} {n : String} : p ∈ ps → p.name = some n → PackageAt ps [n] p
  | inside {ps : List Pkg} {p q : Pkg} {n : String} {way : List String} :
      p ∈ ps → p.name = some n → PackageAt p.packages way q → PackageAt ps (n :: way) q

/-- The element at the end of a way of names. -/
inductive ElementAt (ps : List Pkg) : List String → Val Cls → Prop
  | mk {p : Pkg} {way : List String} {m : String} {v : Val Cls} :
      PackageAt ps way p → v ∈ p.elements → elemName v = some m → ElementAt ps (way ++ [m]) v

/-- The package, element or part of an element at the end of a way of names. -/
inductive At (ps : List Pkg) : List String → Item → Prop
  | package {way : List String} {p : Pkg} : PackageAt ps way p → At ps way (.pkg p)
  | element {way : List String} {v : Val Cls} : ElementAt ps way v → At ps way (.obj v)
  /-- a part of an element that has no two parts of the same name -/
  | part {way : List String} {n : String} {v x : Val Cls} :
      ElementAt ps way v → ((findable v).map elemName).Nodup → x ∈ findable v →
      elemName x = some n → At ps (way ++ [n]) (.obj x)

/-- What is left of a package or object when it has been written and read. -/
def remainsItem : Item → Item
  | .pkg p => .pkg (remainsPkg p)
  | .obj v => .obj (remains v)

/-- The same package or object, where floats without fractional part may have become ints. -/
inductive SameItem : Item → Item → Prop
  | pkg {p q : Pkg} : SamePkg p q → SameItem (.pkg p) (.pkg q)
  | obj {v w : Val Cls} : Same v w → SameItem (.obj v) (.obj w)

/-- The same class and the same name. -/
def Alike : Item → Item → Prop
  | .pkg p, .pkg q => p.name = q.name
  | .obj v, .obj w => classOf v = classOf w ∧ elemName v = elemName w
  | _, _ => False

end Verif.Codec.FindSpec
