import Verif.Py
import Verif.Num.Dec
/-
Numbers as text: `_format_float`, `_format_number`, `_format_numerical_value`
(src/autosar/xml/writer.py 127-175), `_read_number`, `_read_integer`
(src/autosar/xml/reader.py 454-475), `NumericalValue`, `PositiveIntegerValue`
(src/autosar/xml/element.py 103-173), and the Python built-ins they call.
-/
namespace Verif.Num
open Verif.Py

/-! ### Numbers -/

/-- A Python `float`.  A finite one is represented by its shortest decimal representation
`± c · 10^e` (what `repr` prints); that `repr` and `float(text)` are inverse to each other is
taken for granted. -/
inductive PyFloat where
  | fin (neg : Bool) (c : Nat) (e : Int)
  | inf (neg : Bool)
  | nan
deriving DecidableEq, Repr

/-- Remove trailing zeros: the canonical form of `c · 10^e`. -/
def canon (c : Nat) (e : Int) : Nat × Int :=
  if h : c = 0 then (0, 0)
  else if c % 10 = 0 then canon (c / 10) (e + 1) else (c, e)
termination_by c
decreasing_by omega

/-- The representation is canonical: no trailing zeros in the coefficient. -/
def PyFloat.Canonical : PyFloat → Prop
  | .fin _ c e => canon c e = (c, e)
  | _ => True

/-- A Python number: `int` or `float`. -/
inductive PyNum where
  | int (i : Int)
  | float (f : PyFloat)
deriving DecidableEq, Repr

/-! ### Decimal.  (decimal.Decimal with the default context, precision 28) -/

/-- Precision of the default decimal context. -/
def precision : Nat := 28

/-- Number of digits of a coefficient. -/
def numDigits (c : Nat) : Nat := (digs c).length

/-- Sign prefix. -/
def signStr (neg : Bool) : List Char := if neg then ['-'] else []

/-- `str(Decimal)` for a non-integral number: coefficient digits and exponent `e < 0`
(plain notation when the adjusted exponent is at least -6, scientific below). -/
def decimalStr (neg : Bool) (c : Nat) (e : Int) : List Char :=
  let ds := decStr c
  let n := ds.length
  let adj : Int := e + n - 1
  if e ≥ 0 then signStr neg ++ ds   -- not reached for e > 0: `normalize` of a non-integral
  else if adj ≥ -6 then
    if (n : Int) + e > 0 then
      -- point inside the digits
      signStr neg ++ ds.take ((n : Int) + e).toNat ++ '.' :: ds.drop ((n : Int) + e).toNat
    else
      signStr neg ++ '0' :: '.' :: (List.replicate (-(n + e)).toNat '0' ++ ds)
  else
    -- scientific: d[.ddd]E-xx
    signStr neg ++ ds.take 1 ++ (if n > 1 then '.' :: ds.drop 1 else []) ++
      'E' :: '-' :: decStr (-adj).toNat

/-- `_format_float(value)` (writer.py 127-139) for a float.  `Decimal(str(value))` has the
value of the shortest representation; it is integral when the exponent is not negative (or
the number is zero), and then `quantize(Decimal(1))` raises InvalidOperation if the integer
has more than 28 digits. -/
def formatFloat : PyFloat → Except PyErr (List Char)
  | .inf neg => .ok (if neg then "-INF".toList else "INF".toList)
  | .nan => .ok "NaN".toList
  | .fin neg c e =>
    if c = 0 then .ok (signStr neg ++ ['0'])
    else if 0 ≤ e then
      let v := c * 10 ^ e.toNat
      if numDigits v > precision then .error .invalidOperation
      else .ok (signStr neg ++ decStr v)
    else .ok (decimalStr neg c e)

/-- `str(i)` for an int. -/
def intStr (i : Int) : List Char := signStr (i < 0) ++ decStr i.natAbs

/-- `_format_float(value)` when it is handed an `int` (writer.py 127-139): the same path
through Decimal.  (`math.isinf` raises OverflowError from 2^1024 on, the model gives the
InvalidOperation of the smaller numbers.) -/
def formatFloatInt (i : Int) : Except PyErr (List Char) :=
  if numDigits i.natAbs > precision then .error .invalidOperation else .ok (intStr i)

/-- `_format_number` on plain numbers (writer.py 141-148). -/
def formatNumber : PyNum → Except PyErr (List Char)
  | .int i => .ok (intStr i)
  | .float f => formatFloat f

/-- Digits of `n` in base `b` (`b ≥ 2`), most significant first. -/
def digsB (b n : Nat) : List Nat :=
  if _h : n < b ∨ b < 2 then [n] else digsB b (n / b) ++ [n % b]
termination_by n
decreasing_by
  have : n ≠ 0 := by omega
  exact Nat.div_lt_self (by omega) (by omega)

/-- `f"{i:x}"` and `f"{i:b}"`. -/
def radixStr (b : Nat) (i : Int) : List Char :=
  signStr (i < 0) ++ (digsB b i.natAbs).map Nat.digitChar

/-- `ValueFormat` (enumeration.py 672-682). -/
inductive ValueFormat where
  | default | decimal | binary | hexadecimal | scientific
deriving DecidableEq, Repr

/-- `NumericalValue` (element.py 103-138). -/
structure NumericalValue where
  value : PyNum
  format : ValueFormat
deriving DecidableEq, Repr

/-- Seven significant digits of `n`, round half to even, and the decimal exponent: `f"{n:e}"`
for `0 < n ≤ 2^53` (integers that are floats exactly). -/
def sciDigits (n : Nat) : Nat × Nat :=
  let k := numDigits n - 1
  if k ≤ 6 then (n * 10 ^ (6 - k), k)
  else
    let p := 10 ^ (k - 6)
    let q := n / p
    let r := n % p
    let q' := if 2 * r > p ∨ (2 * r = p ∧ q % 2 = 1) then q + 1 else q
    if q' = 10 ^ 7 then (10 ^ 6, k + 1) else (q', k)

/-- `f"{i:e}"` for integers up to 2^53. -/
def sciStr (i : Int) : List Char :=
  let (m, k) := if i = 0 then (0, 0) else sciDigits i.natAbs
  let ds := if m = 0 then List.replicate 7 '0' else decStr m
  signStr (i < 0) ++ ds.take 1 ++ '.' :: ds.drop 1 ++ ['e', '+'] ++
    (if k < 10 then '0' :: decStr k else decStr k)

/-- `_format_numerical_value` (writer.py 161-171).  `:x` and `:b` on a float raise
ValueError; scientific notation of floats is outside the model (`notImplemented`). -/
def formatNumericalValue (n : NumericalValue) : Except PyErr (List Char) :=
  match n.format with
  | .default | .decimal => formatNumber n.value
  | .hexadecimal =>
    match n.value with
    | .int i => .ok ('0' :: 'x' :: radixStr 16 i)
    | .float _ => .error .valueError
  | .binary =>
    match n.value with
    | .int i => .ok ('0' :: 'b' :: radixStr 2 i)
    | .float _ => .error .valueError
  | .scientific =>
    match n.value with
    | .int i => .ok (sciStr i)
    | .float _ => .error .notImplemented

/-! ### Reading -/

/-- Value of a digit character in base `b` (ASCII only; Python also accepts other decimal
digits). -/
def dig (b : Nat) (c : Char) : Option Nat :=
  let v : Option Nat :=
    if '0' ≤ c ∧ c ≤ '9' then some (c.toNat - '0'.toNat)
    else if 'a' ≤ c ∧ c ≤ 'f' then some (c.toNat - 'a'.toNat + 10)
    else if 'A' ≤ c ∧ c ≤ 'F' then some (c.toNat - 'A'.toNat + 10)
    else none
  match v with
  | some d => if d < b then some d else none
  | none => none

/-- Digits with single underscores between them: `d(_?d)*`. -/
def digitsU (b : Nat) : List Char → Option (List Nat)
  | [] => none
  | c :: cs =>
    match dig b c with
    | none => none
    | some d =>
      match cs with
      | [] => some [d]
      | '_' :: cs' => (digitsU b cs').map (d :: ·)
      | c' :: cs' => (digitsU b (c' :: cs')).map (d :: ·)

def isSpace (c : Char) : Bool :=
  c = ' ' || c = '\t' || c = '\n' || c = '\r' || c = Char.ofNat 11 || c = Char.ofNat 12

/-- `text.strip()`. -/
def strip (s : List Char) : List Char :=
  ((s.dropWhile isSpace).reverse.dropWhile isSpace).reverse

/-- Optional sign. -/
def takeSign : List Char → Bool × List Char
  | '-' :: cs => (true, cs)
  | '+' :: cs => (false, cs)
  | cs => (false, cs)

def withSign (neg : Bool) (n : Nat) : Int := if neg then -(n : Int) else n

/-- `int(text)`; `none` is ValueError. -/
def pyInt (s : List Char) : Option Int :=
  let (neg, cs) := takeSign (strip s)
  (digitsU 10 cs).map fun ds => withSign neg (ofDigs 10 ds)

/-- Digits after a base prefix: one underscore may come first. -/
def prefixed (b : Nat) (cs : List Char) : Option Nat :=
  match cs with
  | '_' :: cs' => (digitsU b cs').map (ofDigs b)
  | cs => (digitsU b cs).map (ofDigs b)

/-- Unsigned part of `int(text, 0)`. -/
def int0Body (cs : List Char) : Option Nat :=
  match cs with
  | '0' :: 'x' :: r => prefixed 16 r
  | '0' :: 'X' :: r => prefixed 16 r
  | '0' :: 'b' :: r => prefixed 2 r
  | '0' :: 'B' :: r => prefixed 2 r
  | '0' :: 'o' :: r => prefixed 8 r
  | '0' :: 'O' :: r => prefixed 8 r
  | cs =>
    match digitsU 10 cs with
    | none => none
    | some ds => if ds.head? = some 0 ∧ ofDigs 10 ds ≠ 0 then none else some (ofDigs 10 ds)

/-- `int(text, 0)`; `none` is ValueError. -/
def pyInt0 (s : List Char) : Option Int :=
  let (neg, cs) := takeSign (strip s)
  (int0Body cs).map (withSign neg)

/-- Digits or nothing. -/
def optDigits (s : List Char) : Option (List Nat) := if s = [] then some [] else digitsU 10 s

/-- Split before the first character satisfying `p`; the second part starts with it. -/
def splitAt? (p : Char → Bool) : List Char → List Char × Option (List Char)
  | [] => ([], none)
  | c :: cs => if p c then ([], some cs) else (c :: (splitAt? p cs).1, (splitAt? p cs).2)

/-- Exponent part: sign and digits. -/
def parseExp (s : List Char) : Option Int :=
  let (neg, cs) := takeSign s
  (digitsU 10 cs).map fun ds => withSign neg (ofDigs 10 ds)

/-- ASCII lower case. -/
def lower (c : Char) : Char := if 'A' ≤ c ∧ c ≤ 'Z' then Char.ofNat (c.toNat + 32) else c

/-- Unsigned decimal literal `digits[.digits][e[+-]digits]`, as coefficient and exponent. -/
def parseDecimal (s : List Char) : Option (Nat × Int) :=
  let (mant, ex) := splitAt? (fun c => c = 'e' || c = 'E') s
  let (ip, fp) := splitAt? (· = '.') mant
  match optDigits ip, optDigits (fp.getD []), (match ex with | none => some 0 | some x => parseExp x) with
  | some a, some b, some x =>
    if a ++ b = [] then none else some (ofDigs 10 (a ++ b), x - b.length)
  | _, _, _ => none

/-- `float(text)`; `none` is ValueError. -/
def pyFloat (s : List Char) : Option PyFloat :=
  let (neg, cs) := takeSign (strip s)
  let l := cs.map lower
  if l = "inf".toList ∨ l = "infinity".toList then some (.inf neg)
  else if l = "nan".toList then some .nan
  else match parseDecimal cs with
    | none => none
    | some (c, e) => let (c', e') := canon c e; some (.fin neg c' e')

/-- `_read_number(text)` (reader.py 454-465). -/
def readNumber (s : List Char) : Except PyErr PyNum :=
  match pyInt s with
  | some i => .ok (.int i)
  | none =>
    match pyFloat s with
    | some f => .ok (.float f)
    | none => .error .parseError

/-- `_read_integer(text)` (reader.py 467-475). -/
def readInteger (s : List Char) : Except PyErr Int :=
  match pyInt0 s with
  | some i => .ok i
  | none => .error .parseError

/-- `NumericalValue(text)` (element.py 108-138). -/
def numericalValueOfText (s : List Char) : Except PyErr NumericalValue :=
  let fmt : ValueFormat :=
    match s with
    | '0' :: 'x' :: _ => .hexadecimal
    | '0' :: 'b' :: _ => .binary
    | _ => .default
  match pyInt0 s with
  | some i => .ok ⟨.int i, fmt⟩
  | none =>
    match pyFloat s with
    | some f => .ok ⟨.float f, fmt⟩
    | none => .error .valueError

/-- `PositiveIntegerValue(text).value` (element.py 146-173). -/
def positiveIntegerOfText (s : List Char) : Except PyErr Nat :=
  match pyInt0 s with
  | none => .error .typeError
  | some i => if i < 0 then .error .valueError else .ok i.natAbs

end Verif.Num
