import Verif.Xml.Writer
/-
Specification of reading XML text (not part of the repository, which uses lxml): elements,
attributes, character data, the predefined entities and numeric character references,
end-of-line normalisation, attribute-value normalisation, and the well-formedness rules that
concern them (matching tags, distinct attribute names, no `<` and bare `&` in text, no `]]>`
in text, legal characters).  Comments, CDATA sections, processing instructions inside the
document and document type declarations are not covered: the parser rejects them.
-/
namespace Verif.Xml.Spec
open Verif.Xml

/-- What an XML parser delivers: elements and text. -/
inductive Dom where
  | elem (tag : String) (attrs : Attrs) (kids : List Dom)
  | text (s : String)
deriving Repr

/-- Characters allowed in XML 1.0. -/
def isXmlChar (c : Char) : Bool :=
  c == '\t' || c == '\n' || c == '\r' || (' ' ≤ c && c.toNat != 0xFFFE && c.toNat != 0xFFFF)

/-- Characters of tag and attribute names (ASCII subset). -/
def isNameChar (c : Char) : Bool :=
  c.isAlphanum || c == '-' || c == '_' || c == ':' || c == '.'

def isSpace (c : Char) : Bool := c == ' ' || c == '\n' || c == '\t' || c == '\r'

def skipSpace (cs : List Char) : List Char := cs.dropWhile isSpace

/-- A non-empty name. -/
def name (cs : List Char) : Option (String × List Char) :=
  match cs.takeWhile isNameChar with
  | [] => none
  | n => some (String.ofList n, cs.dropWhile isNameChar)

/-- Value of a digit in base `b`. -/
def digitVal (b : Nat) (c : Char) : Option Nat :=
  let v := if '0' ≤ c ∧ c ≤ '9' then c.toNat - '0'.toNat
    else if 'a' ≤ c ∧ c ≤ 'f' then c.toNat - 'a'.toNat + 10
    else if 'A' ≤ c ∧ c ≤ 'F' then c.toNat - 'A'.toNat + 10 else 99
  if v < b then some v else none

/-- Digits up to `;`. -/
def charRef (b : Nat) (acc : Nat) (seen : Bool) : List Char → Option (Char × List Char)
  | [] => none
  | c :: cs =>
    if c = ';' then
      if seen && acc.isValidChar && isXmlChar (Char.ofNat acc) then some (Char.ofNat acc, cs) else none
    else match digitVal b c with
      | some d => charRef b (acc * b + d) true cs
      | none => none

/-- What follows `&`. -/
def entity : List Char → Option (Char × List Char)
  | 'l' :: 't' :: ';' :: cs => some ('<', cs)
  | 'g' :: 't' :: ';' :: cs => some ('>', cs)
  | 'a' :: 'm' :: 'p' :: ';' :: cs => some ('&', cs)
  | 'q' :: 'u' :: 'o' :: 't' :: ';' :: cs => some ('"', cs)
  | 'a' :: 'p' :: 'o' :: 's' :: ';' :: cs => some ('\'', cs)
  | '#' :: 'x' :: cs => charRef 16 0 false cs
  | '#' :: cs => charRef 10 0 false cs
  | _ => none

/-- Character data up to the next `<`. -/
def textRun : Nat → List Char → Option (List Char × List Char)
  | 0, _ => none
  | n + 1, cs =>
    match cs with
    | [] => some ([], [])
    | '<' :: r => some ([], '<' :: r)
    | '&' :: r =>
      match entity r with
      | some (c, r') => (textRun n r').map fun (t, r'') => (c :: t, r'')
      | none => none
    | ']' :: ']' :: '>' :: _ => none
    | c :: r =>
      if isXmlChar c then (textRun n r).map fun (t, r') => (c :: t, r') else none

/-- An attribute value up to the closing quote `q`; white space is normalised to blanks. -/
def attrValue (q : Char) : Nat → List Char → Option (List Char × List Char)
  | 0, _ => none
  | n + 1, cs =>
    match cs with
    | [] => none
    | c :: r =>
      if c = q then some ([], r)
      else if c = '<' then none
      else if c = '&' then
        match entity r with
        | some (c', r') => (attrValue q n r').map fun (t, r'') => (c' :: t, r'')
        | none => none
      else if c = '\n' ∨ c = '\t' ∨ c = '\r' then (attrValue q n r).map fun (t, r') => (' ' :: t, r')
      else if isXmlChar c then (attrValue q n r).map fun (t, r') => (c :: t, r')
      else none

/-- Attributes after the tag name.  The flag tells whether white space separates the next one
from what precedes it. -/
def attrList : Nat → List Char → Option (Attrs × List Char)
  | 0, _ => none
  | n + 1, cs =>
    let cs' := skipSpace cs
    match cs' with
    | '>' :: _ => some ([], cs')
    | '/' :: '>' :: _ => some ([], cs')
    | _ =>
      if cs' = cs then none   -- no white space before the attribute
      else match name cs' with
        | none => none
        | some (k, r) =>
          match skipSpace r with
          | '=' :: r1 =>
            match skipSpace r1 with
            | q :: r2 =>
              if q = '"' ∨ q = '\'' then
                match attrValue q (n + 1) r2 with
                | none => none
                | some (v, r3) =>
                  match attrList n r3 with
                  | none => none
                  | some (as, r4) =>
                    if (as.map Prod.fst).contains k then none
                    else some ((k, String.ofList v) :: as, r4)
              else none
            | [] => none
          | _ => none

mutual
/-- One element. -/
def element : Nat → List Char → Option (Dom × List Char)
  | 0, _ => none
  | n + 1, cs =>
    match cs with
    | '<' :: r =>
      match name r with
      | none => none
      | some (tag, r1) =>
        match attrList (n + 1) r1 with
        | some (as, '/' :: '>' :: r2) => some (.elem tag as [], r2)
        | some (as, '>' :: r2) =>
          match content n r2 with
          | some (kids, '<' :: '/' :: r3) =>
            match name r3 with
            | some (tag', r4) =>
              match skipSpace r4 with
              | '>' :: r5 => if tag' = tag then some (.elem tag as kids, r5) else none
              | _ => none
            | none => none
          | _ => none
        | _ => none
    | _ => none

/-- Element content up to the end tag. -/
def content : Nat → List Char → Option (List Dom × List Char)
  | 0, _ => none
  | n + 1, cs =>
    match cs with
    | [] => none
    | '<' :: '/' :: r => some ([], '<' :: '/' :: r)
    | '<' :: r =>
      match element n ('<' :: r) with
      | none => none
      | some (e, r1) =>
        match content n r1 with
        | none => none
        | some (ks, r2) => some (e :: ks, r2)
    | cs =>
      match textRun (n + 1) cs with
      | none => none
      | some (t, r1) =>
        match content n r1 with
        | none => none
        | some (ks, r2) => some (.text (String.ofList t) :: ks, r2)
end

/-- End-of-line normalisation: `\r\n` and `\r` become `\n`. -/
def normEol : List Char → List Char
  | [] => []
  | '\r' :: '\n' :: cs => '\n' :: normEol cs
  | '\r' :: cs => '\n' :: normEol cs
  | c :: cs => c :: normEol cs

/-- A complete element, with nothing but white space around it. -/
def parseElement (cs : List Char) : Option Dom :=
  let cs := normEol cs
  match element (2 * cs.length + 2) (skipSpace cs) with
  | some (d, r) => if skipSpace r = [] then some d else none
  | none => none

/-- A complete document: an XML declaration, then one element. -/
def parseDocument (cs : List Char) : Option Dom :=
  if cs.take xmlDecl.length = xmlDecl then parseElement (cs.drop xmlDecl.length) else none

end Verif.Xml.Spec
