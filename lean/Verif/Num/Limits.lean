import Verif.Num.Text
/-
Limits (`LimitObject`, element.py 1289-1324) and value tables
(`Computation.make_value_table`, element.py 1193-1231).
-/
namespace Verif.Num
open Verif.Py

/-! ### Limits -/

/-- Numbers as comparisons see them: Python compares `int` and `float` exactly, so finite
ones are rationals. -/
inductive ENum where
  | fin (q : Rat)
  | posInf
  | negInf
  | nan
deriving DecidableEq

/-- `a < b`. -/
def ENum.lt : ENum → ENum → Bool
  | .nan, _ => false
  | _, .nan => false
  | .fin a, .fin b => a < b
  | .fin _, .posInf => true
  | .negInf, .fin _ => true
  | .negInf, .posInf => true
  | _, _ => false

/-- `a <= b`. -/
def ENum.le : ENum → ENum → Bool
  | .nan, _ => false
  | _, .nan => false
  | .fin a, .fin b => a ≤ b
  | .negInf, _ => true
  | _, .posInf => true
  | _, _ => false

/-- `IntervalType` (enumeration.py 299-307). -/
inductive IntervalType where
  | closed | open
deriving DecidableEq, Repr

/-- `LimitObject` (element.py 1294-1303); `none` is `None`. -/
structure Limits where
  lower : Option ENum
  upper : Option ENum
  lowerType : IntervalType := .closed
  upperType : IntervalType := .closed
deriving DecidableEq

/-- The lower half of `check_value` (element.py 1314-1318): is the value rejected?
Comparing with `None` raises TypeError. -/
def lowerRejects (l : Limits) (v : ENum) : Except PyErr Bool :=
  match l.lower with
  | none => .error .typeError
  | some b => .ok (if l.lowerType = .closed then v.lt b else v.le b)

/-- The upper half of `check_value` (element.py 1319-1323); `value > b` is `b < value`. -/
def upperRejects (l : Limits) (v : ENum) : Except PyErr Bool :=
  match l.upper with
  | none => .error .typeError
  | some b => .ok (if l.upperType = .closed then b.lt v else b.le v)

/-- `LimitObject.check_value` (element.py 1310-1324). -/
def checkValue (l : Limits) (v : ENum) : Except PyErr Bool :=
  match lowerRejects l v with
  | .error e => .error e
  | .ok true => .ok false
  | .ok false =>
    match upperRejects l v with
    | .error e => .error e
    | .ok true => .ok false
    | .ok false => .ok true

/-! ### Value tables -/

/-- What a tuple of a table can hold. -/
inductive Cell where
  | num (n : PyNum)
  | text (s : String)
  | other (tag : String)
deriving DecidableEq, Repr

/-- One element of the list given to `make_value_table`. -/
inductive Entry where
  | text (s : String)
  | tuple (cells : List Cell)
  | other (tag : String)
deriving DecidableEq, Repr

/-- The scale built per element: `CompuScale(CompuConst(value), lower, upper, label)`
(element.py 1114-1124, 1133-1160), limit types left at their defaults. -/
structure TableScale where
  value : Cell
  lower : Cell
  upper : Cell
  label : Option String
  lowerType : IntervalType := .closed
  upperType : IntervalType := .closed
deriving DecidableEq, Repr

/-- `default_value` argument: `None`, a `CompuConst`, a number or string, anything else. -/
inductive DefaultArg where
  | none
  | compuConst (v : Cell)
  | cell (v : Cell)
deriving DecidableEq, Repr

/-- `Computation` (element.py 1176-1191). -/
structure ValueTable where
  scales : List TableScale
  default : Option Cell
deriving DecidableEq, Repr

/-- Limits and value of one element (element.py 1218-1228). -/
def entryLimits (i : Nat) : Entry → Except PyErr (Cell × Cell × Cell)
  | .text s => .ok (.num (.int i), .num (.int i), .text s)
  | .tuple [a, v] => .ok (a, a, v)
  | .tuple [a, b, v] => .ok (a, b, v)
  | .tuple _ => .error .valueError
  | .other _ => .error .typeError

/-- One turn of the loop (element.py 1216-1231). -/
def entryScale (autoLabel : Bool) (i : Nat) (e : Entry) : Except PyErr TableScale :=
  match entryLimits i e with
  | .error err => .error err
  | .ok (lo, hi, v) =>
    .ok { value := v, lower := lo, upper := hi,
          label := match v with
            | .text s => if autoLabel then some s else none
            | _ => none }

/-- The loop (element.py 1215-1231). -/
def tableLoop (autoLabel : Bool) : Nat → List Entry → Except PyErr (List TableScale)
  | _, [] => .ok []
  | i, e :: es =>
    match entryScale autoLabel i e with
    | .error err => .error err
    | .ok s =>
      match tableLoop autoLabel (i + 1) es with
      | .error err => .error err
      | .ok ss => .ok (s :: ss)

/-- `Computation.__init__`'s treatment of the default value (element.py 1187-1191): values
of other types are dropped silently. -/
def defaultOf : DefaultArg → Option Cell
  | .none => Option.none
  | .compuConst v => some v
  | .cell (.num n) => some (.num n)
  | .cell (.text s) => some (.text s)
  | .cell (.other _) => Option.none

/-- `Computation.make_value_table(elements, default_value, auto_label)` (element.py 1193-1231). -/
def makeValueTable (elements : List Entry) (dflt : DefaultArg) (autoLabel : Bool) :
    Except PyErr ValueTable :=
  match tableLoop autoLabel 0 elements with
  | .error e => .error e
  | .ok ss => .ok ⟨ss, defaultOf dflt⟩

/-- `Computation.make_rational` (element.py 1233-1256): numerator `[offset, factor]`,
denominator `[1]` of the single scale, with the limits given. -/
structure RationalScale where
  numerator : List PyNum
  denominator : List PyNum
  lower : Option Cell
  upper : Option Cell
  lowerType : IntervalType
  upperType : IntervalType
deriving DecidableEq, Repr

/-- `float(x)` of a number, on the decimal representation.  (Integers above 2^53 are rounded
by Python; not modelled.) -/
def toFloat : PyNum → PyFloat
  | .float f => f
  | .int i => .fin (i < 0) (canon i.natAbs 0).1 (canon i.natAbs 0).2

def makeRational (scaling offset : PyNum) (lower upper : Option Cell)
    (lt ut : IntervalType) : RationalScale :=
  ⟨[offset, .float (toFloat scaling)], [.int 1], lower, upper, lt, ut⟩

end Verif.Num
