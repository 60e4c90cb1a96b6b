/-
The two patterns that strings have to match: alignments and display formats.
-/
namespace Verif.Codec

/-- `alignment_type_re.match(value)`, element.py 66-67, is not `None`.  `match` looks for a match at
the beginning of the string only and does not need to reach its end: `[1-9][0-9]*` matches as soon
as the first character does, and `0[0-7]*` matches whenever it is a zero. -/
def alignmentMatch (s : List Char) : Bool :=
  match s with
  | c :: _ =>
    ('1' ≤ c && c ≤ '9') || c = '0' ||
    ["UNSPECIFIED", "UNKNOWN", "BOOLEAN", "PTR"].any fun w => w.toList.isPrefixOf s
  | [] => false

/-- `[0-9]` -/
def isDigit09 (c : Char) : Bool := '0' ≤ c && c ≤ '9'

/-- `[ \-+#]?` -/
def skipFlag : List Char → List Char
  | c :: r => if c ∈ [' ', '-', '+', '#'] then r else c :: r
  | [] => []

/-- `(\.[0-9]+)?` -/
def skipFraction : List Char → List Char
  | '.' :: d :: r => if isDigit09 d then r.dropWhile isDigit09 else '.' :: d :: r
  | s => s

/-- `display_format_str_re.match(value)`, element.py 69-70, is not `None`.  No character belongs to
two neighbouring parts of the pattern, so nothing is gained by backtracking. -/
def formatMatch : List Char → Bool
  | '%' :: s =>
    match skipFraction ((skipFlag s).dropWhile isDigit09) with
    | c :: _ => c ∈ ['d', 'i', 'o', 'u', 'x', 'X', 'f', 'e', 'E', 'g', 'G', 'c', 's']
    | [] => false
  | _ => false

end Verif.Codec
