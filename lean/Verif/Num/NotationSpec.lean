/-
The notations for whole numbers in AUTOSAR files (C53): decimal with an optional sign, hexadecimal
`0x1F`, binary `0b101`, and octal `017`.
-/
namespace Verif.Num.Notation

/-- The character stands for this digit. -/
def IsDigit (c : Char) (d : Nat) : Prop :=
  "0123456789abcdef".toList[d]? = some c ∨ "0123456789ABCDEF".toList[d]? = some c

/-- The characters are the digits of this number to base `b`. -/
inductive Numeral (b : Nat) : List Char → Nat → Prop
  | digit {c : Char} {d : Nat} : IsDigit c d → d < b → Numeral b [c] d
  | more {cs : List Char} {n : Nat} {c : Char} {d : Nat} : Numeral b cs n → IsDigit c d → d < b →
      Numeral b (cs ++ [c]) (b * n + d)

inductive Notation where
  | decimal | hexadecimal | binary | octal
deriving DecidableEq, Repr

/-- The text is this number in this notation. -/
inductive Denotes : Notation → List Char → Int → Prop
  | zero : Denotes .decimal ['0'] 0
  | decimal {c : Char} {cs : List Char} {n : Nat} : c ≠ '0' → Numeral 10 (c :: cs) n →
      Denotes .decimal (c :: cs) n
  | plus {c : Char} {cs : List Char} {n : Nat} : c ≠ '0' → Numeral 10 (c :: cs) n →
      Denotes .decimal ('+' :: c :: cs) n
  | minus {c : Char} {cs : List Char} {n : Nat} : c ≠ '0' → Numeral 10 (c :: cs) n →
      Denotes .decimal ('-' :: c :: cs) (-n)
  | hexadecimal {x : Char} {cs : List Char} {n : Nat} : x = 'x' ∨ x = 'X' → Numeral 16 cs n →
      Denotes .hexadecimal ('0' :: x :: cs) n
  | binary {x : Char} {cs : List Char} {n : Nat} : x = 'b' ∨ x = 'B' → Numeral 2 cs n →
      Denotes .binary ('0' :: x :: cs) n
  | octal {cs : List Char} {n : Nat} : Numeral 8 cs n → Denotes .octal ('0' :: cs) n

end Verif.Num.Notation
