import Verif.Value.Model
import Verif.Codec.Dispatch
/-
Constants made of Python data (src/autosar/xml/element.py 2528-2805).
-/
namespace Verif.Codec.Constant
open Verif.Py Verif.Num Verif.Value

/-- `self.label = label` (2534-2535). -/
def labelled : Option String → List (String × Val Cls)
  | none => []
  | some l => [("label", .str l)]

/-- A list attribute; `Val.obj` does not list empty ones. -/
def items (attr : String) (vs : List (Val Cls)) : List (String × Val Cls) :=
  if vs.isEmpty then [] else [(attr, .list vs)]

/-- The value of a `NumericalValueSpecification` (2658-2660). -/
def number : Option NumVal → List (String × Val Cls)
  | none => []
  | some (.num n) => [("value", .num n)]
  | some (.bool b) => [("value", .bool b)]

/-- `self.default_pattern = default_pattern` (2669-2678), which takes anything but negative ints.
Simplification: the codec has no attributes that are tuples, lists of anything or other objects; these
are left out here, and the theorems do not speak of them. -/
def pattern : PyData → List (String × Val Cls)
  | .none => []
  | .num n => [("default_pattern", .num n)]
  | .str s => [("default_pattern", .str s)]
  | .bool b => [("default_pattern", .bool b)]
  | _ => []

mutual
/-- The object: `TextValueSpecification` (2641-2649), `NumericalValueSpecification` (2652-2660),
`NotAvailableValueSpecification` (2663-2678), `ArrayValueSpecification` (2681-2706),
`RecordValueSpecification` (2709-2734), `ConstantReference` (2808-2828). -/
def valueObj : ValueSpec → Val Cls
  | .text l s => .obj .TextValueSpecification
      (labelled l ++ match s with | none => [] | some s => [("value", .str s)])
  | .numerical l n => .obj .NumericalValueSpecification (labelled l ++ number n)
  | .notAvailable l p => .obj .NotAvailableValueSpecification (labelled l ++ pattern p)
  | .array l vs => .obj .ArrayValueSpecification (labelled l ++ items "elements" (valueObjs vs))
  | .record l vs => .obj .RecordValueSpecification (labelled l ++ items "fields" (valueObjs vs))
  | .constRef l r => .obj .ConstantReference
      (labelled l ++ match r with
        | none => []
        | some r => [("constant_ref", .ref ⟨"ConstantRef", r, "CONSTANT_SPECIFICATION"⟩)])
def valueObjs : List ValueSpec → List (Val Cls)
  | [] => []
  | v :: vs => valueObj v :: valueObjs vs
end

/-- `ConstantSpecification.make_constant(name, value)` (2795-2805) without further arguments: name and
value (`Value.makeConstant`) become attributes (2776-2784). -/
def constant (name : String) (d : PyData) : Except PyErr (Val Cls) :=
  match makeConstant name d with
  | .error e => .error e
  | .ok (n, v) => .ok (.obj .ConstantSpecification [("name", .str n), ("value", valueObj v)])

end Verif.Codec.Constant
