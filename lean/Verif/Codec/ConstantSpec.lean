import Verif.Value.Spec
import Verif.Codec.Constant
import Verif.Codec.Spec
/-
What it means that a value specification holds some Python data (C64).
-/
namespace Verif.Codec.ConstantSpec
open Verif.Py Verif.Num Verif.Value Verif.Value.Spec Verif.Codec.Spec

/-- A text that can be written: not empty, and without characters that would have to be escaped. -/
def goodText (s : String) : Bool := s ≠ "" && plainText s

/-- A default pattern: None or an integer that is not negative. -/
def goodPattern : PyData → Bool
  | .none => true
  | .num (.int i) => 0 ≤ i
  | _ => false

mutual
/-- Data without bools whose texts and numbers can all be written. -/
def good : PyData → Bool
  | .none => true
  | .num n => numOk n
  | .str s => goodText s
  | .list (_ :: ds) => goodAll ds
  | .tuple [.str l, d] => goodText l && good d
  | .tuple [.str l, d, p] => goodText l && good d && goodPattern p
  | _ => false
def goodAll : List PyData → Bool
  | [] => true
  | d :: ds => good d && goodAll ds
end

/-- The attribute `label`. -/
def label : Option String → List (String × Val Cls)
  | none => []
  | some l => [("label", .str l)]

mutual
/-- The object holds the data: its class is the one for the kind of data, and label, text, number,
default pattern and elements are those given (a float without fractional part may be an int). -/
inductive Holds : PyData → Val Cls → Prop
  | plain {d o} : NotTuple d → HoldsAs none d .none o → Holds d o
  | labelled {l d o} : HoldsAs (some l) d .none o → Holds (.tuple [.str l, d]) o
  | patterned {l d p o} : HoldsAs (some l) d p o → Holds (.tuple [.str l, d, p]) o
/-- The same for a value with a label and a default pattern. -/
inductive HoldsAs : Option String → PyData → PyData → Val Cls → Prop
  | number {l n n' p} : SameNum n n' →
      HoldsAs l (.num n) p (.obj .NumericalValueSpecification (label l ++ [("value", .num n')]))
  | text {l s p} :
      HoldsAs l (.str s) p (.obj .TextValueSpecification (label l ++ [("value", .str s)]))
  | absent {l} : HoldsAs l .none .none (.obj .NotAvailableValueSpecification (label l))
  | absentPattern {l i} : HoldsAs l .none (.num (.int i))
      (.obj .NotAvailableValueSpecification (label l ++ [("default_pattern", .num (.int i))]))
  | emptyArray {l m p} : ArrayMarker m →
      HoldsAs l (.list [.str m]) p (.obj .ArrayValueSpecification (label l))
  | array {l m ds p os} : ArrayMarker m → ds ≠ [] → HoldsAll ds os →
      HoldsAs l (.list (.str m :: ds)) p
        (.obj .ArrayValueSpecification (label l ++ [("elements", .list os)]))
  | emptyRecord {l m p} : RecordMarker m →
      HoldsAs l (.list [.str m]) p (.obj .RecordValueSpecification (label l))
  | record {l m ds p os} : RecordMarker m → ds ≠ [] → HoldsAll ds os →
      HoldsAs l (.list (.str m :: ds)) p
        (.obj .RecordValueSpecification (label l ++ [("fields", .list os)]))
/-- Element by element, in order. -/
inductive HoldsAll : List PyData → List (Val Cls) → Prop
  | nil : HoldsAll [] []
  | cons {d o ds os} : Holds d o → HoldsAll ds os → HoldsAll (d :: ds) (o :: os)
end

end Verif.Codec.ConstantSpec
