import Verif.Codec.Find
/-
`make_packages` of documents and packages (src/autosar/xml/element.py; all line numbers are of that file).  C05 is
about the same methods on packages that change; here packages are values, as the reader builds them.
-/
namespace Verif.Codec.Make
open Verif.Py Verif.Codec

/-- `Package(name)` (2839-2843, 183-185). -/
def newPkg (n : String) : Pkg := .mk [("name", .str n)] [] []

/-- The packages after `go` has been called on the one of the name, which is created at the end if there is none
(2876-2883, 2885-2895, 3083-3087, 3061-3070), and what `go` returns.  Simplification: the dictionary of names is left
out, as in `findPkgs`. -/
def descend (go : Pkg → Pkg × Except PyErr Pkg) (n : String) : List Pkg → List Pkg × Except PyErr Pkg
  | [] => ([(go (newPkg n)).1], (go (newPkg n)).2)
  | q :: qs =>
    if q.name = some n then ((go q).1 :: qs, (go q).2)
    else (q :: (descend go n qs).1, (descend go n qs).2)

/-- `Package.make_packages` (2869-2883): the package afterwards, and the package that is returned or the exception.
`fuel` bounds the depth of the recursion; one more than the length of the text suffices (`make_outcome`). -/
def makeIn : Nat → Pkg → List Char → Pkg × Except PyErr Pkg
  | 0, p, _ => (p, .error .recursionError)
  | fuel + 1, .mk h es ps, ref =>
    if startsWithL '/' ref then (.mk h es ps, .error .valueError)
    else if some (String.ofList (partL '/' ref).1) ∈ es.map elemName then (.mk h es ps, .error .keyError)
    else
      let r := descend (fun q => if (partL '/' ref).2 ≠ [] then makeIn fuel q (partL '/' ref).2 else (q, .ok q))
        (String.ofList (partL '/' ref).1) ps
      (.mk h es r.1, r.2)

/-- `PackageCollection.make_packages` with one argument (3072-3089): the packages of the document afterwards, and
the package that is returned or the exception. -/
def make (ps : List Pkg) (ref : String) : List Pkg × Except PyErr Pkg :=
  let parts := partL '/' (stripLead '/' ref.toList)
  descend (fun q => if parts.2 ≠ [] then makeIn (parts.2.length + 1) q parts.2 else (q, .ok q))
    (String.ofList parts.1) ps

end Verif.Codec.Make
