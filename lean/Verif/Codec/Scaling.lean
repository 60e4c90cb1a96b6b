import Verif.Num.Limits
import Verif.Codec.Dispatch
/-
Data constraints, linear conversions and value tables as objects of the codec
(src/autosar/xml/element.py 1091-1256, 1289-1513).
-/
namespace Verif.Codec.Scaling
open Verif.Py Verif.Num Verif.Enums

/-- An attribute; `Val.obj` does not list those that are None. -/
def attr (k : String) : Option (Val Cls) → List (String × Val Cls)
  | none => []
  | some v => [(k, v)]

/-- A list attribute; `Val.obj` does not list empty ones. -/
def items (k : String) (vs : List (Val Cls)) : List (String × Val Cls) :=
  if vs.isEmpty then [] else [(k, .list vs)]

/-- The members of `IntervalType` (enumeration.py 299-307). -/
def intervalMember : IntervalType → Member
  | .closed => ⟨"IntervalType", "CLOSED"⟩
  | .open => ⟨"IntervalType", "OPEN"⟩

/-- A limit with its interval type; the type of a limit that is None has no effect. -/
def limit (n : Option PyNum) (t : IntervalType) : Option (Val Cls) :=
  n.map fun n => .limit n (intervalMember t)

/-! ### Data constraints -/

/-- `LimitObject.__init__` (1294-1303), parameters in their order. -/
def limitObject (lower_limit upper_limit : Option PyNum)
    (lower_limit_type upper_limit_type : IntervalType) : List (String × Val Cls) :=
  attr "lower_limit" (limit lower_limit lower_limit_type) ++
  attr "upper_limit" (limit upper_limit upper_limit_type)

/-- `ConstraintBase.__init__` (1352-1365), parameters in their order. -/
def constraintBase (lower_limit upper_limit : Option PyNum) (scale_constrs : List (Val Cls))
    (max_gradient max_diff : Option PyNum) (monotony : Option Member)
    (lower_limit_type upper_limit_type : IntervalType) : List (String × Val Cls) :=
  limitObject lower_limit upper_limit lower_limit_type upper_limit_type ++
  items "scale_constrs" scale_constrs ++ attr "max_gradient" (max_gradient.map .num) ++
  attr "max_diff" (max_diff.map .num) ++ attr "monotony" (monotony.map .enum)

/-- `InternalConstraint.__init__` (1374-1390), parameters in their order. -/
def internalConstraint (lower_limit upper_limit : Option PyNum) (scale_constr : List (Val Cls))
    (max_gradient max_diff : Option PyNum) (monotony : Option Member)
    (lower_limit_type upper_limit_type : IntervalType) : Val Cls :=
  .obj .InternalConstraint
    (constraintBase lower_limit upper_limit scale_constr max_gradient max_diff monotony
      lower_limit_type upper_limit_type)

/-- `PhysicalConstraint.__init__` (1399-1417), parameters in their order. -/
def physicalConstraint (lower_limit upper_limit : Option PyNum) (scale_constr : List (Val Cls))
    (max_gradient max_diff : Option PyNum) (monotony : Option Member)
    (unit_ref : Option Verif.Ref.RefObj)
    (lower_limit_type upper_limit_type : IntervalType) : Val Cls :=
  .obj .PhysicalConstraint
    (constraintBase lower_limit upper_limit scale_constr max_gradient max_diff monotony
      lower_limit_type upper_limit_type ++ attr "unit_ref" (unit_ref.map .ref))

/-- `DataConstraintRule.__init__` (1426-1432). -/
def dataConstraintRule (internal physical : Option (Val Cls)) (level : Option Int) : Val Cls :=
  .obj .DataConstraintRule
    (attr "internal" internal ++ attr "physical" physical ++
     attr "level" (level.map fun i => .num (.int i)))

/-- `DataConstraint.__init__` (1441-1449) without further arguments. -/
def dataConstraint (name : String) (rules : List (Val Cls)) : Val Cls :=
  .obj .DataConstraint ([("name", .str name)] ++ items "rules" rules)

/-- The arguments of `make_physical` and `make_internal` (1460-1471, 1489-1499), by name.  The second
has no `unit_ref`. -/
structure Args where
  lower_limit : Option PyNum := none
  upper_limit : Option PyNum := none
  scale_constr : List (Val Cls) := []
  max_gradient : Option PyNum := none
  max_diff : Option PyNum := none
  monotony : Option Member := none
  unit_ref : Option Verif.Ref.RefObj := none
  lower_limit_type : IntervalType := .closed
  upper_limit_type : IntervalType := .closed

/-- `DataConstraint.make_physical` (1460-1486). -/
def makePhysical (name : String) (a : Args) : Val Cls :=
  dataConstraint name [dataConstraintRule none (some (physicalConstraint a.lower_limit a.upper_limit
    a.scale_constr a.max_gradient a.max_diff a.monotony a.unit_ref a.lower_limit_type
    a.upper_limit_type)) none]

/-- `DataConstraint.make_internal` (1488-1513). -/
def makeInternal (name : String) (a : Args) : Val Cls :=
  dataConstraint name [dataConstraintRule (some (internalConstraint a.lower_limit a.upper_limit
    a.scale_constr a.max_gradient a.max_diff a.monotony a.lower_limit_type
    a.upper_limit_type)) none none]

/-- A number as comparisons see it. -/
def value : PyNum → ENum
  | .int i => .fin i
  | .float (.fin neg c e) =>
    if 0 ≤ e then .fin ((if neg then -(c * 10 ^ e.toNat : Int) else (c * 10 ^ e.toNat : Int)) : Int)
    else .fin (mkRat (if neg then -(c : Int) else c) (10 ^ (-e).toNat))
  | .float (.inf true) => .negInf
  | .float (.inf false) => .posInf
  | .float .nan => .nan

/-- `self.lower_limit` and `self.lower_limit_type`, or the same for the upper limit (1300-1303). -/
def limitAttr (k : String) (fs : List (String × Val Cls)) : Option ENum × IntervalType :=
  match fs.lookup k with
  | some (.limit n m) => (some (value n), if m = intervalMember .closed then .closed else .open)
  | _ => (none, .closed)

/-- The limits of an object. -/
def limitsOf (fs : List (String × Val Cls)) : Limits where
  lower := (limitAttr "lower_limit" fs).1
  upper := (limitAttr "upper_limit" fs).1
  lowerType := (limitAttr "lower_limit" fs).2
  upperType := (limitAttr "upper_limit" fs).2

/-- `obj.check_value(x)` (1310-1324) on an object with these attributes. -/
def check (fs : List (String × Val Cls)) (x : PyNum) : Except PyErr Bool :=
  checkValue (limitsOf fs) (value x)

/-! ### Computations -/

/-- `CompuConst(value)` (1123-1124).  Simplification: no other values than numbers and texts. -/
def compuConst : Cell → Val Cls
  | .num n => .obj .CompuConst [("value", .num n)]
  | .text s => .obj .CompuConst [("value", .str s)]
  | .other _ => .obj .CompuConst []

/-- `CompuRational(numerator, denominator)` (1097-1111). -/
def compuRational (numerator denominator : List PyNum) : Val Cls :=
  .obj .CompuRational
    (items "numerator" (numerator.map .num) ++ items "denominator" (denominator.map .num))

/-- A limit of a scale.  Simplification: limits that are texts or other objects are left out. -/
def cellLimit (t : IntervalType) : Option Cell → Option (Val Cls)
  | some (.num n) => limit (some n) t
  | _ => none

/-- `CompuScale(content, lower_limit, upper_limit, label, lower_limit_type=…, upper_limit_type=…)`
(1133-1160). -/
def compuScale (content : Val Cls) (lower upper : Option Cell) (label : Option String)
    (lt ut : IntervalType) : Val Cls :=
  .obj .CompuScale
    ([("content", content)] ++ attr "lower_limit" (cellLimit lt lower) ++
     attr "upper_limit" (cellLimit ut upper) ++ attr "label" (label.map .str))

/-- `Computation(compu_scales, default_value)` (1182-1191). -/
def computation (scales : List (Val Cls)) (default : Option Cell) : Val Cls :=
  .obj .Computation
    (items "compu_scales" scales ++ attr "default_value" (default.map compuConst))

/-- The object `Computation.make_value_table` (1193-1231) returns. -/
def tableObj (t : ValueTable) : Val Cls :=
  computation (t.scales.map fun s =>
    compuScale (compuConst s.value) (some s.lower) (some s.upper) s.label s.lowerType s.upperType)
    t.default

/-- The object `Computation.make_rational` (1233-1256) returns. -/
def rationalObj (s : RationalScale) (default : DefaultArg) : Val Cls :=
  computation [compuScale (compuRational s.numerator s.denominator) s.lower s.upper none
    s.lowerType s.upperType] (defaultOf default)

/-- `CompuMethod(name, int_to_phys)` (1265-1275). -/
def compuMethod (name : String) (int_to_phys : Val Cls) : Val Cls :=
  .obj .CompuMethod [("name", .str name), ("int_to_phys", int_to_phys)]

end Verif.Codec.Scaling
