import Verif.Codec.OrderSpec
import Verif.Codec.PackageSpec
/-
Elements of packages that are left out when a file is read, and elements that keep the whole file
from being read.
-/
namespace Verif.Codec.Spec
open Verif.Py Verif.Num Verif.Xml Verif.Xml.Spec

/-- The exceptions that are reported, after which reading goes on without the element (reader.py
659-671). -/
def reported (e : PyErr) : Bool := e = .parseError || e = .duplicateElement

/-- What `read_str_elem` without type name makes of an element of a package: `none` if there is no
method for its tag. -/
def readAlone : Dom → Option (Except PyErr (Val Cls))
  | .elem t as ds =>
    match dictGet readerCollectable t with
    | some m => some (readWith tables m (.elem t as ds))
    | none => none
  | .text _ => none

/-- The element is of a kind the reader does not know, or an exception that is reported is raised
for it. -/
def leftOut : Dom → Bool
  | .elem t as ds =>
    match readAlone (.elem t as ds) with
    | some (.ok _) => false
    | some (.error e) => reported e
    | none => true
  | .text _ => false

mutual
/-- The file, or the package, without the elements that are left out. -/
def tidy : Dom → Dom
  | .elem t as ds => .elem t as (tidyParts ds)
  | .text s => .text s
/-- The parts of a file or package: packages and elements. -/
def tidyParts : List Dom → List Dom
  | [] => []
  | .elem t as ds :: rest =>
    (if t = "ELEMENTS" then .elem t as (ds.filter fun d => !leftOut d)
     else if t = "AR-PACKAGES" then .elem t as (tidyAll ds)
     else .elem t as ds) :: tidyParts rest
  | .text s :: rest => .text s :: tidyParts rest
/-- A list of packages. -/
def tidyAll : List Dom → List Dom
  | [] => []
  | d :: ds => tidy d :: tidyAll ds
end

/-- The nodes in the ELEMENTS of a package, or of a package below it. -/
inductive InPackage (es : List Dom) : Dom → Prop
  | here {t : String} {as : Attrs} {ds : List Dom} {u : String} {a : Attrs}
      (h : firstElem "ELEMENTS" ds = some (.elem u a es)) : InPackage es (.elem t as ds)
  | inside {t : String} {as : Attrs} {ds : List Dom} {u : String} {a : Attrs} {ps : List Dom}
      {p : Dom} (h : firstElem "AR-PACKAGES" ds = some (.elem u a ps)) (hp : p ∈ ps)
      (ht : hasTag "AR-PACKAGE" p = true) (he : InPackage es p) : InPackage es (.elem t as ds)

/-- The nodes in the ELEMENTS of a package of the file. -/
def InFile (es : List Dom) : Dom → Prop
  | .elem _ _ ds => ∃ a ps, .elem "AR-PACKAGES" a ps ∈ ds ∧
      ∃ p ∈ ps, hasTag "AR-PACKAGE" p = true ∧ InPackage es p
  | .text _ => False

/-- The element that a node is read as, if it is. -/
def goodElement (d : Dom) : Option (Val Cls) :=
  match readAlone d with
  | some (.ok v) => some v
  | _ => none

/-- The elements of a package, or of one below it. -/
inductive HasElements (es : List (Val Cls)) : Pkg → Prop
  | here {head : List (String × Val Cls)} {ps : List Pkg} : HasElements es (.mk head es ps)
  | inside {head : List (String × Val Cls)} {es' : List (Val Cls)} {ps : List Pkg} {p : Pkg}
      (hp : p ∈ ps) (h : HasElements es p) : HasElements es (.mk head es' ps)

end Verif.Codec.Spec
