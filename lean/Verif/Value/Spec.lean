import Verif.Value.Model
/-
What `make_value` is documented to do (docstring element.py 2564-2588), as relations between
Python data and value specifications, without reference to the functions of the model.
-/
namespace Verif.Value.Spec
open Verif.Py Verif.Num Verif.Value

/-- A list marker, in any mix of cases: the word has the letters of `w` up to case. -/
def Marker (m : String) (w : List (Char × Char)) : Prop :=
  m.toList.length = w.length ∧ ∀ (i : Nat) (c : Char) (p : Char × Char),
    m.toList[i]? = some c → w[i]? = some p → c = p.1 ∨ c = p.2

def ArrayMarker (m : String) : Prop :=
  Marker m [('A', 'a')] ∨
  Marker m [('A', 'a'), ('R', 'r'), ('R', 'r'), ('A', 'a'), ('Y', 'y')]

def RecordMarker (m : String) : Prop :=
  Marker m [('R', 'r')] ∨
  Marker m [('R', 'r'), ('E', 'e'), ('C', 'c'), ('O', 'o'), ('R', 'r'), ('D', 'd')]

/-- The data is not a tuple. -/
def NotTuple : PyData → Prop
  | .tuple _ => False
  | _ => True

/-- A negative integer. -/
def NegativeInt (p : PyData) : Prop := ∃ i : Int, i < 0 ∧ p = .num (.int i)

mutual

/-- `Describes d v`: the data `d` describes the value specification `v`. -/
inductive Describes : PyData → ValueSpec → Prop
  | plain {d v} : NotTuple d → Content none d .none v → Describes d v
  | labelled {l d v} : Content (some l) d .none v → Describes (.tuple [.str l, d]) v
  | patterned {l d p v} : Content (some l) d p v → Describes (.tuple [.str l, d, p]) v

/-- `Content label value pattern v`: value and default pattern, under the label, describe `v`. -/
inductive Content : Option String → PyData → PyData → ValueSpec → Prop
  | number {l n p} : Content l (.num n) p (.numerical l (some (.num n)))
  | bool {l b p} : Content l (.bool b) p (.numerical l (some (.bool b)))
  | text {l s p} : Content l (.str s) p (.text l (some s))
  | absent {l p} : ¬ NegativeInt p → Content l .none p (.notAvailable l p)
  | array {l m ds p vs} : ArrayMarker m → DescribesAll ds vs →
      Content l (.list (.str m :: ds)) p (.array l vs)
  | record {l m ds p vs} : RecordMarker m → DescribesAll ds vs →
      Content l (.list (.str m :: ds)) p (.record l vs)

/-- Element by element, in order. -/
inductive DescribesAll : List PyData → List ValueSpec → Prop
  | nil : DescribesAll [] []
  | cons {d v ds vs} : Describes d v → DescribesAll ds vs → DescribesAll (d :: ds) (v :: vs)
end

/-- Data of a kind that is no scalar, None, or list. -/
inductive BadKind : PyData → Prop
  | tuple {xs} : BadKind (.tuple xs)
  | other {c} : BadKind (.other c)

mutual

/-- `Faulty d e`: the first fault of `d`, in reading order, is one for which `e` is raised. -/
inductive Faulty : PyData → PyErr → Prop
  | emptyTuple : Faulty (.tuple []) .indexError
  | labelNotString {x xs} : (∀ s, x ≠ .str s) → Faulty (.tuple (x :: xs)) .typeError
  | tupleLength {s xs} : xs.length ≠ 1 → xs.length ≠ 2 →
      Faulty (.tuple (.str s :: xs)) .valueError
  | plain {d e} : NotTuple d → FaultyContent d .none e → Faulty d e
  | labelled {l d e} : FaultyContent d .none e → Faulty (.tuple [.str l, d]) e
  | patterned {l d p e} : FaultyContent d p e → Faulty (.tuple [.str l, d, p]) e

inductive FaultyContent : PyData → PyData → PyErr → Prop
  | negativePattern {p} : NegativeInt p → FaultyContent .none p .valueError
  | kind {d p} : BadKind d → FaultyContent d p .typeError
  | emptyList {p} : FaultyContent (.list []) p .indexError
  | markerNotString {x xs p} : (∀ s, x ≠ .str s) → FaultyContent (.list (x :: xs)) p .typeError
  | unknownMarker {m ds p} : ¬ ArrayMarker m → ¬ RecordMarker m →
      FaultyContent (.list (.str m :: ds)) p .valueError
  | element {m pre d post p vs e} : ArrayMarker m ∨ RecordMarker m → DescribesAll pre vs →
      Faulty d e → FaultyContent (.list (.str m :: (pre ++ d :: post))) p e
end

end Verif.Value.Spec
