import Verif.Codec.Scaling
import Verif.Codec.ConstantSpec
/-
What data constraints, linear conversions and value tables mean (C65).
-/
namespace Verif.Codec.ScalingSpec
open Verif.Py Verif.Num Verif.Enums Verif.Codec.Spec Verif.Codec.ConstantSpec
open Verif.Codec.Scaling (Args value check)

/-- A step from an object to one of its attributes, or from a list to one of its elements. -/
inductive Step where
  | attr (name : String)
  | item (index : Nat)
deriving DecidableEq

/-- What a way leads to: `o.rules[0].physical` is `[.attr "rules", .item 0, .attr "physical"]`. -/
def follow : List Step → Val Cls → Option (Val Cls)
  | [], v => some v
  | .attr k :: p, .obj _ fs =>
    match fs.lookup k with
    | none => none
    | some v => follow p v
  | .item i :: p, .list vs =>
    match vs[i]? with
    | none => none
    | some v => follow p v
  | _ :: _, _ => none

/-- The classes with a method `check_value`. -/
def limitClasses : List Cls := [.ScaleConstraint, .InternalConstraint, .PhysicalConstraint]

/-- `o.….check_value(x)`, if the way leads to an object that has limits. -/
def checkAt (p : List Step) (v : Val Cls) (x : PyNum) : Option (Except PyErr Bool) :=
  match follow p v with
  | some (.obj c fs) => if c ∈ limitClasses then some (check fs x) else none
  | _ => none

/-- Numbers that can be written, or None. -/
def goodNum : Option PyNum → Bool
  | none => true
  | some n => numOk n

/-- Arguments for a constraint that can be written. -/
def goodArgs (a : Args) : Bool :=
  goodNum a.lower_limit && goodNum a.upper_limit && goodNum a.max_gradient && goodNum a.max_diff &&
  a.scale_constr.all (fun s => hasS tables s (.cls .ScaleConstraint) && plainVal xmlAttrs s) &&
  (match a.monotony with | none => true | some m => m.cls = "Monotony" && enumOk m) &&
  (match a.unit_ref with
    | none => true
    | some r => hasS tables (.ref r) (.ref "UnitRef") && plainVal xmlAttrs (.ref r : Val Cls))

/-- The attributes of the constraint that `make_internal` is given. -/
def given (a : Args) : String → Option (Val Cls)
  | "max_gradient" => a.max_gradient.map .num
  | "max_diff" => a.max_diff.map .num
  | "monotony" => a.monotony.map .enum
  | "scale_constrs" => if a.scale_constr = [] then none else some (.list a.scale_constr)
  | _ => none

/-- Their names. -/
def givenNames : List String := ["scale_constrs", "max_gradient", "max_diff", "monotony"]

/-- Both are absent, or what is left of the first is the same as the second. -/
inductive Arrives : Option (Val Cls) → Option (Val Cls) → Prop
  | none : Arrives none none
  | some {v w} : Same (remains v) w → Arrives (some v) (some w)

/-! ### Conversions -/

/-- The finite number. -/
def finite (n : PyNum) : Option Rat :=
  match value n with
  | .fin q => some q
  | _ => none

/-- `a₀ + a₁ x + a₂ x² + …`. -/
def poly (x : Rat) : List Rat → Rat
  | [] => 0
  | a :: as => a + x * poly x as

/-- A finite number in a list. -/
def finiteOf : Val Cls → Option Rat
  | .num n => finite n
  | _ => none

/-- The numbers in a list attribute, if there are no others. -/
def numbers : Option (Val Cls) → Option (List Rat)
  | some (.list vs) => vs.mapM finiteOf
  | _ => none

/-- The physical value of the internal value `x`: the fraction that the first scale describes. -/
def convert (o : Val Cls) (x : Rat) : Option Rat :=
  match numbers (follow [.attr "int_to_phys", .attr "compu_scales", .item 0, .attr "content",
      .attr "numerator"] o),
    numbers (follow [.attr "int_to_phys", .attr "compu_scales", .item 0, .attr "content",
      .attr "denominator"] o) with
  | some n, some d => some (poly x n / poly x d)
  | _, _ => none

/-- Limits of a scale: the number, and whether it is included. -/
def scaleLimit : Option (Val Cls) → Option (ENum × Bool)
  | some (.limit n m) => some (value n, m.name = "CLOSED")
  | _ => none

/-- A number or a text. -/
inductive Const where
  | num (n : ENum)
  | text (s : String)

/-- The value of a constant. -/
def constOf : Option (Val Cls) → Option Const
  | some (.num n) => some (.num (value n))
  | some (.str s) => some (.text s)
  | _ => none

/-- The text. -/
def labelOf : Option (Val Cls) → Option String
  | some (.str s) => some s
  | _ => none

/-- A line of a value table. -/
structure Row where
  lower : Option (ENum × Bool)
  upper : Option (ENum × Bool)
  value : Option Const
  label : Option String

/-- The line at position `i` of the table of a computation method. -/
def rowAt (o : Val Cls) (i : Nat) : Option Row :=
  let here := [Step.attr "int_to_phys", .attr "compu_scales", .item i]
  match follow here o with
  | none => none
  | some _ => some {
      lower := scaleLimit (follow (here ++ [.attr "lower_limit"]) o)
      upper := scaleLimit (follow (here ++ [.attr "upper_limit"]) o)
      value := constOf (follow (here ++ [.attr "content", .attr "value"]) o)
      label := labelOf (follow (here ++ [.attr "label"]) o) }

/-- The line that an entry at position `i` stands for: a text is for the number `i`, a pair for a
number, a triple for a range; limits are included.  Texts are labels, too, if wanted. -/
def described (autoLabel : Bool) (i : Nat) (e : Entry) : Option Row :=
  let row (a b : PyNum) (v : Cell) : Option Row :=
    match v with
    | .num n => some ⟨some (value a, true), some (value b, true), some (.num (value n)), none⟩
    | .text s => some ⟨some (value a, true), some (value b, true), some (.text s),
        if autoLabel then some s else none⟩
    | .other _ => none
  match e with
  | .text s => row (.int i) (.int i) (.text s)
  | .tuple [.num a, v] => row a a v
  | .tuple [.num a, .num b, v] => row a b v
  | _ => none

/-- A number or text that can be written. -/
def goodCell : Cell → Bool
  | .num n => numOk n
  | .text s => goodText s
  | .other _ => false

/-- An entry with numbers as limits and a value that can be written. -/
def goodEntry : Entry → Bool
  | .text s => goodText s
  | .tuple [.num a, v] => numOk a && goodCell v
  | .tuple [.num a, .num b, v] => numOk a && numOk b && goodCell v
  | _ => false

/-- A number that `float` does not change, and that can be written. -/
def goodFactor : PyNum → Bool
  | .int i => i.natAbs ≤ 2 ^ 53
  | .float f => floatOk f

/-- A default value that can be written, or None. -/
def goodDefault : DefaultArg → Bool
  | .none => true
  | .compuConst v => goodCell v
  | .cell v => goodCell v

/-- The default value. -/
def defaultConst : DefaultArg → Option Const
  | .none => none
  | .compuConst (.num n) | .cell (.num n) => some (.num (value n))
  | .compuConst (.text s) | .cell (.text s) => some (.text s)
  | _ => none

/-- Numbers as limits of a scale, or None. -/
def goodLimit : Option Cell → Bool
  | none => true
  | some (.num n) => numOk n
  | some _ => false

/-- The limit that is given. -/
def givenLimit (t : IntervalType) : Option Cell → Option (ENum × Bool)
  | some (.num n) => some (value n, t = .closed)
  | _ => none

/-- The number that a Python number is: `c * 10 ^ e` with its sign, an infinity, or none at all. -/
inductive Means : PyNum → ENum → Prop
  | int (i : Int) : Means (.int i) (.fin i)
  | whole (neg : Bool) (c k : Nat) (q : Rat) :
      q = (if neg then (-1 : Rat) else 1) * c * 10 ^ k → Means (.float (.fin neg c (k : Int))) (.fin q)
  | fraction (neg : Bool) (c k : Nat) (q : Rat) :
      0 < k → q * 10 ^ k = (if neg then (-1 : Rat) else 1) * c → Means (.float (.fin neg c (-(k : Int)))) (.fin q)
  | plusInf : Means (.float (.inf false)) .posInf
  | minusInf : Means (.float (.inf true)) .negInf
  | nan : Means (.float .nan) .nan

end Verif.Codec.ScalingSpec
