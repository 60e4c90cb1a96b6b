import Verif.Pkg.Model
/-
Specification vocabulary for the package properties.  Only the stored lists,
names and parents of objects are mentioned, none of the model's operations.
-/
namespace Verif.Pkg.Spec
open Verif.Pkg

/-- Container `c` lists item `x`. -/
def Holds (h : Heap) (c x : Nat) : Prop :=
  x ∈ (h.obj c).packages ∨ x ∈ (h.obj c).elements

/-- Object `x` is a package or a package element. -/
def IsItem (h : Heap) (x : Nat) : Prop :=
  (h.obj x).cls = .package ∨ ∃ k, (h.obj x).cls = .element k

/-- Object `c` is a package or a package collection. -/
def IsContainer (h : Heap) (c : Nat) : Prop :=
  (h.obj c).cls = .package ∨ (h.obj c).cls = .collection

/-- Starting in container `c` and descending through items with the given names,
one arrives at `x`. -/
inductive Contains (h : Heap) : Nat → List String → Nat → Prop
  | here {c x : Nat} {n : String} : Holds h c x → (h.obj x).name = n → Contains h c [n] x
  | down {c p x : Nat} {n : String} {ns : List String} : p ∈ (h.obj c).packages →
      (h.obj p).name = n → Contains h p ns x → Contains h c (n :: ns) x

/-- The chain of parents of `x` ends in collection `c`; `ns` are the names from
the top down to `x`. -/
inductive ParentPath (h : Heap) (c : Nat) : List String → Nat → Prop
  | top {x : Nat} : (h.obj x).parent = some c → (h.obj c).cls = .collection →
      ParentPath h c [(h.obj x).name] x
  | under {ns : List String} {p x : Nat} : ParentPath h c ns p → (h.obj x).parent = some p →
      ParentPath h c (ns ++ [(h.obj x).name]) x

/-- The chain of parents of `x` ends at an object without parent that is not a
collection. -/
inductive Detached (h : Heap) : Nat → Prop
  | here {x : Nat} : (h.obj x).cls ≠ .collection → (h.obj x).parent = none → Detached h x
  | up {x p : Nat} : (h.obj x).parent = some p → Detached h p → Detached h x

/-- A usable short-name. -/
def GoodName (n : String) : Prop := n ≠ "" ∧ '/' ∉ n.toList

/-- The absolute reference string for a list of names. -/
def absRef (ns : List String) : String := String.join (ns.map (fun n => "/" ++ n))

/-- The relative reference string for a non-empty list of names. -/
def relRef : List String → String
  | [] => ""
  | n :: ns => n ++ absRef ns

/-- One segment of a reference: a non-empty name, or a name preceded by one slash. -/
inductive Segment : List Char → String → Prop
  | plain {n : String} : GoodName n → Segment n.toList n
  | slash {n : String} : '/' ∉ n.toList → Segment ('/' :: n.toList) n

/-- How a reference string spells a list of names: segments separated by a slash,
each optionally preceded by one extra slash, an optional slash at the end. -/
inductive Denotes : List Char → List String → Prop
  | empty : Denotes [] [""]
  | last {s : List Char} {n : String} : Segment s n → Denotes s [n]
  | trail {s : List Char} {n : String} : Segment s n → Denotes (s ++ ['/']) [n]
  | more {s rest : List Char} {n : String} {ns : List String} : Segment s n →
      Denotes rest ns → rest ≠ [] → Denotes (s ++ '/' :: rest) (n :: ns)

end Verif.Pkg.Spec
