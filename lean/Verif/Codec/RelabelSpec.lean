import Verif.Codec.RenameSpec
/-
What reading does to the names of access points that are not different (C22, C45).
-/
namespace Verif.Codec.RelabelSpec
open Verif.Names Verif.Codec Verif.Codec.Rename Verif.Codec.RenameSpec

/-- The name, with "_0" behind it any number of times. -/
inductive Suffixed (s : String) : String → Prop
  | same : Suffixed s s
  | more {t : String} : Suffixed s t → Suffixed s (t ++ "_0")

/-- The access point, but for such a suffix of its name. -/
inductive Relabelled : Val Cls → Val Cls → Prop
  | same (x : Val Cls) : Relabelled x x
  | name {c : Cls} {p q : List (String × Val Cls)} {s t : String} :
      (∀ kv ∈ p, kv.1 ≠ "name") → Suffixed s t →
      Relabelled (.obj c (p ++ ("name", .str s) :: q)) (.obj c (p ++ ("name", .str t) :: q))

/-- The access points of a list one by one; the last is as it was. -/
inductive RelabelledAll : List (Val Cls) → List (Val Cls) → Prop
  | nil : RelabelledAll [] []
  | last (x : Val Cls) : RelabelledAll [x] [x]
  | more {x y x' y' : Val Cls} {xs ys : List (Val Cls)} : Relabelled x y →
      RelabelledAll (x' :: xs) (y' :: ys) → RelabelledAll (x :: x' :: xs) (y :: y' :: ys)

mutual
/-- The object, but for the names of access points of the runnables in it. -/
inductive Renamed : Val Cls → Val Cls → Prop
  | same (v : Val Cls) : Renamed v v
  | list {vs ws : List (Val Cls)} : RenamedAll vs ws → Renamed (.list vs) (.list ws)
  | obj {c : Cls} {fs gs : List (String × Val Cls)} : RenamedFields c fs gs →
      Renamed (.obj c fs) (.obj c gs)
inductive RenamedAll : List (Val Cls) → List (Val Cls) → Prop
  | nil : RenamedAll [] []
  | cons {v w : Val Cls} {vs ws : List (Val Cls)} : Renamed v w → RenamedAll vs ws →
      RenamedAll (v :: vs) (w :: ws)
inductive RenamedFields : Cls → List (String × Val Cls) → List (String × Val Cls) → Prop
  | nil {c : Cls} : RenamedFields c [] []
  | cons {c : Cls} {k : String} {v w : Val Cls} {fs gs : List (String × Val Cls)} : Renamed v w →
      RenamedFields c fs gs → RenamedFields c ((k, v) :: fs) ((k, w) :: gs)
  | access {k : String} {vs ws us : List (Val Cls)} {fs gs : List (String × Val Cls)} :
      k ∈ accessLists → RenamedAll vs ws → RelabelledAll ws us →
      RenamedFields .RunnableEntity fs gs →
      RenamedFields .RunnableEntity ((k, .list vs) :: fs) ((k, .list us) :: gs)
end

mutual
inductive RenamedPkg : Pkg → Pkg → Prop
  | mk {head : List (String × Val Cls)} {es es' : List (Val Cls)} {ps ps' : List Pkg} :
      RenamedAll es es' → RenamedPkgs ps ps' → RenamedPkg (.mk head es ps) (.mk head es' ps')
inductive RenamedPkgs : List Pkg → List Pkg → Prop
  | nil : RenamedPkgs [] []
  | cons {p q : Pkg} {ps qs : List Pkg} : RenamedPkg p q → RenamedPkgs ps qs →
      RenamedPkgs (p :: ps) (q :: qs)
end

/-- In every runnable in `v` the access points have names, without characters that mean something in
regular expressions. -/
def PlainNames (v : Val Cls) : Prop :=
  ∀ fs, Inside (.obj .RunnableEntity fs) v → ∀ k ∈ accessLists, ∀ vs, (k, .list vs) ∈ fs →
    ∀ x ∈ vs, nameIn x ≠ [] ∧ Plain (nameIn x)

/-- In every runnable in `v` the last two access points of a kind have different names. -/
def LastTwo (v : Val Cls) : Prop :=
  ∀ fs, Inside (.obj .RunnableEntity fs) v → ∀ k ∈ accessLists, ∀ vs x y,
    (k, .list (vs ++ [x, y])) ∈ fs → nameIn x ≠ nameIn y

mutual
/-- `P` holds for all elements of a package and of the packages below it. -/
def EachElement (P : Val Cls → Prop) : Pkg → Prop
  | .mk _ elements packages => (∀ v ∈ elements, P v) ∧ EachElements P packages
def EachElements (P : Val Cls → Prop) : List Pkg → Prop
  | [] => True
  | p :: ps => EachElement P p ∧ EachElements P ps
end

end Verif.Codec.RelabelSpec
