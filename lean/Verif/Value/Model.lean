import Verif.Py
import Verif.Num.Text
/-
Value specifications and their construction from Python data:
src/autosar/xml/element.py 2524-2841.
-/
namespace Verif.Value
open Verif.Py Verif.Num

/-- Python data as accepted by `make_value` (element.py 2563).  `other cls` is any object that
is not a bool, number, string, None, list or tuple; `cls` is the name of its class.
(`True`/`False` are `int`s for `isinstance`, and are kept apart here because they stay bools.) -/
inductive PyData where
  | none
  | bool (b : Bool)
  | num (n : PyNum)
  | str (s : String)
  | list (xs : List PyData)
  | tuple (xs : List PyData)
  | other (cls : String)
deriving Repr

/-- The value of a `NumericalValueSpecification` (element.py 2652-2660): whatever int or float
it was given, bools included. -/
inductive NumVal where
  | bool (b : Bool)
  | num (n : PyNum)
deriving DecidableEq, Repr

/-- Value specification objects (element.py 2524-2841).  Fields in constructor order.
`ApplicationValueSpecification` is modelled with its codec, not here: `make_value` never
builds it. -/
inductive ValueSpec where
  /-- `TextValueSpecification` (element.py 2641) -/
  | text (label : Option String) (value : Option String)
  /-- `NumericalValueSpecification` (element.py 2652) -/
  | numerical (label : Option String) (value : Option NumVal)
  /-- `NotAvailableValueSpecification` (element.py 2663); `default_pattern` is stored unchecked
  unless it is a negative int -/
  | notAvailable (label : Option String) (pattern : PyData)
  /-- `ArrayValueSpecification` (element.py 2681) -/
  | array (label : Option String) (elements : List ValueSpec)
  /-- `RecordValueSpecification` (element.py 2709) -/
  | record (label : Option String) (fields : List ValueSpec)
  /-- `ConstantReference` (element.py 2808); the reference is its string -/
  | constRef (label : Option String) (ref : Option String)
deriving Repr

/-- `s.upper()` for the comparison with the markers (element.py 2617-2619).  Only ASCII letters
are mapped; no other character has an upper-case form made of letters of the markers. -/
def upper (s : String) : List Char := s.toList.map Char.toUpper

/-- `s.upper() in ("A", "ARRAY")` (element.py 2617) -/
def isArrayMarker (s : String) : Bool := upper s == ['A'] || upper s == ['A', 'R', 'R', 'A', 'Y']

/-- `s.upper() in ("R", "RECORD")` (element.py 2619) -/
def isRecordMarker (s : String) : Bool :=
  upper s == ['R'] || upper s == ['R', 'E', 'C', 'O', 'R', 'D']

/-- `NotAvailableValueSpecification.__init__` (element.py 2669-2678) -/
def mkNotAvailable (label : Option String) (pattern : PyData) : Except PyErr ValueSpec :=
  match pattern with
  | .num (.int i) => if i < 0 then .error .valueError else .ok (.notAvailable label pattern)
  | _ => .ok (.notAvailable label pattern)

mutual

/-- `ValueSpecification._make_from_args` (element.py 2604-2624), with
`_make_array_value_spefication` and `_make_record_value_spefication` (2626-2638) inlined: the
constructors' own `append` checks cannot fail on elements built by `make_value`. -/
def makeFromArgs (label : Option String) (value : PyData) (pattern : PyData) :
    Except PyErr ValueSpec :=
  match value with
  | .num n => .ok (.numerical label (some (.num n)))
  | .bool b => .ok (.numerical label (some (.bool b)))
  | .str s => .ok (.text label (some s))
  | .none => mkNotAvailable label pattern
  | .list [] => .error .indexError
  | .list (.str m :: rest) =>
    if isArrayMarker m then
      match makeAll rest with
      | .ok vs => .ok (.array label vs)
      | .error e => .error e
    else if isRecordMarker m then
      match makeAll rest with
      | .ok vs => .ok (.record label vs)
      | .error e => .error e
    else .error .valueError
  | .list _ => .error .typeError
  | .tuple _ => .error .typeError
  | .other _ => .error .typeError

/-- `ValueSpecification.make_value` (element.py 2562-2602). -/
def makeValue (data : PyData) : Except PyErr ValueSpec :=
  match data with
  | .tuple [] => .error .indexError
  | .tuple [.str l, v] => makeFromArgs (some l) v .none
  | .tuple [.str l, v, p] => makeFromArgs (some l) v p
  | .tuple (.str _ :: _) => .error .valueError
  | .tuple _ => .error .typeError
  | d => makeFromArgs Option.none d .none

/-- The loop over the remaining list elements (element.py 2628-2630, 2635-2637). -/
def makeAll (values : List PyData) : Except PyErr (List ValueSpec) :=
  match values with
  | [] => .ok []
  | v :: rest =>
    match makeValue v with
    | .error e => .error e
    | .ok x =>
      match makeAll rest with
      | .error e => .error e
      | .ok xs => .ok (x :: xs)
end

/-- Arguments of `make_value_with_check` (element.py 2538-2560). -/
inductive InitArg where
  | spec (v : ValueSpec)
  | constantRef (ref : String)
  | data (d : PyData)

/-- `ValueSpecification.make_value_with_check` (element.py 2538-2560) -/
def makeValueWithCheck : InitArg → Except PyErr (Option ValueSpec)
  | .data .none => .ok none
  | .spec v => .ok (some v)
  | .constantRef r => .ok (some (.constRef none (some r)))
  | .data (.other _) => .error .typeError
  | .data d => (makeValue d).map some

/-- `ConstantSpecification.make_constant` (element.py 2793-2805): name and value. -/
def makeConstant (name : String) (d : PyData) : Except PyErr (String × ValueSpec) :=
  (makeValue d).map fun v => (name, v)

end Verif.Value
