/-
Regular expressions, as far as needed for the patterns of the program.
-/
namespace Verif.Codec.Spec

/-- Regular expressions. -/
inductive Rx where
  /-- a character of these ranges -/
  | chars (ranges : List (Char × Char))
  /-- this text -/
  | word (w : List Char)
  | seq (a b : Rx)
  | alt (a b : Rx)
  | star (a : Rx)

namespace Rx

/-- The strings of a regular expression. -/
inductive Lang : Rx → List Char → Prop where
  | chars {ranges : List (Char × Char)} {c : Char} {r : Char × Char} (h : r ∈ ranges)
      (h1 : r.1 ≤ c) (h2 : c ≤ r.2) : Lang (.chars ranges) [c]
  | word (w : List Char) : Lang (.word w) w
  | seq {a b : Rx} {s t : List Char} (h1 : Lang a s) (h2 : Lang b t) : Lang (.seq a b) (s ++ t)
  | left {a b : Rx} {s : List Char} (h : Lang a s) : Lang (.alt a b) s
  | right {a b : Rx} {s : List Char} (h : Lang b s) : Lang (.alt a b) s
  | done (a : Rx) : Lang (.star a) []
  | more {a : Rx} {s t : List Char} (h1 : Lang a s) (h2 : Lang (.star a) t) :
      Lang (.star a) (s ++ t)

/-- One or none. -/
def opt (a : Rx) : Rx := .alt (.word []) a

/-- One or more. -/
def plus (a : Rx) : Rx := .seq a (.star a)

/-- One of these characters. -/
def oneOf (s : String) : Rx := .chars (s.toList.map fun c => (c, c))

/-- This text. -/
def text (s : String) : Rx := .word s.toList

/-- The beginning of the string is one of the strings of the regular expression; the rest of it
does not matter. -/
def Begins (a : Rx) (s : List Char) : Prop := ∃ p r, s = p ++ r ∧ Lang a p

end Rx

open Rx

/-- `[1-9][0-9]*|0[xX][0-9a-fA-F]*|0[bB][0-1]+|0[0-7]*|UNSPECIFIED|UNKNOWN|BOOLEAN|PTR`,
element.py 66-67. -/
def alignmentRx : Rx :=
  .alt (.seq (.chars [('1', '9')]) (.star (.chars [('0', '9')]))) <|
  .alt (.seq (text "0") (.seq (oneOf "xX") (.star (.chars [('0', '9'), ('a', 'f'), ('A', 'F')])))) <|
  .alt (.seq (text "0") (.seq (oneOf "bB") (plus (.chars [('0', '1')])))) <|
  .alt (.seq (text "0") (.star (.chars [('0', '7')]))) <|
  .alt (text "UNSPECIFIED") <|
  .alt (text "UNKNOWN") <|
  .alt (text "BOOLEAN") <|
  text "PTR"

/-- `%[ \-+#]?[0-9]*(\.[0-9]+)?[diouxXfeEgGcs]`, element.py 69-70. -/
def formatRx : Rx :=
  .seq (text "%") <|
  .seq (opt (oneOf " -+#")) <|
  .seq (.star (.chars [('0', '9')])) <|
  .seq (opt (.seq (text ".") (plus (.chars [('0', '9')])))) <|
  oneOf "diouxXfeEgGcs"

end Verif.Codec.Spec
