import Verif.Codec.Make
import Verif.Codec.FindSpec
/-
What `make_packages` may change (C71).
-/
namespace Verif.Codec.MakeSpec
open Verif.Codec Verif.Codec.FindSpec

/-- The package with the same attributes and elements, and perhaps with more packages, after those it had. -/
structure Like (p p' : Pkg) : Prop where
  head : p'.head = p.head
  elements : p'.elements = p.elements
  packages : p.packages.map Pkg.name <+: p'.packages.map Pkg.name

/-- There are at most more packages, on ways that are allowed; they have a name and nothing else, and no elements. -/
structure Only (allowed : List String → Prop) (ps ps' : List Pkg) : Prop where
  first : ps.map Pkg.name <+: ps'.map Pkg.name
  kept : ∀ way p, PackageAt ps way p → ∃ p', PackageAt ps' way p' ∧ Like p p'
  new : ∀ way p', PackageAt ps' way p' → (∃ p, PackageAt ps way p ∧ Like p p') ∨
    (allowed way ∧ (∀ p, ¬ PackageAt ps way p) ∧ p'.elements = [] ∧
      ∃ n, way.getLast? = some n ∧ p'.head = [("name", .str n)])

end Verif.Codec.MakeSpec
