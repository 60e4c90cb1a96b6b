import Verif.Xml.Parse
/-
Vocabulary for the statements about written XML.
-/
namespace Verif.Xml.Spec
open Verif.Xml

mutual
/-- The lines of an element that stands below `d` open elements: how many elements are open
around the line, and its text. -/
def lines (d : Nat) : Xml → List (Nat × List Char)
  | .node tag attrs kids => (d, startTag tag attrs) :: (linesAll (d + 1) kids ++ [(d, endTag tag)])
  | .leaf tag attrs text => [(d, contentStr tag attrs text)]
  | .mixed tag attrs parts => [(d, startTag tag attrs ++ partsStr parts ++ endTag tag)]
def linesAll (d : Nat) : List Xml → List (Nat × List Char)
  | [] => []
  | x :: xs => lines d x ++ linesAll d xs
/-- inline pieces -/
def partsStr : List Part → List Char
  | [] => []
  | .text s :: ps => s.toList ++ partsStr ps
  | .elem tag attrs text :: ps => contentStr tag attrs text ++ partsStr ps
end

/-- Two blanks per open element. -/
def indentOf (d : Nat) : List Char := List.replicate (2 * d) ' '

/-- Lines separated by newlines, each indented. -/
def joinLines : List (Nat × List Char) → List Char
  | [] => []
  | [(d, t)] => indentOf d ++ t
  | (d, t) :: ls => indentOf d ++ t ++ '\n' :: joinLines ls

/-- Inline pieces with empty texts dropped and adjacent texts merged: what is there to see in
the text. -/
def mergeParts : List Part → List Part
  | [] => []
  | .text s :: ps =>
    if s = "" then mergeParts ps
    else match mergeParts ps with
      | .text t :: qs => .text (s ++ t) :: qs
      | qs => .text s :: qs
  | e :: ps => e :: mergeParts ps

/-- White space. -/
def Blank (s : String) : Prop := ∀ c ∈ s.toList, isSpace c = true

mutual
/-- `Same dom x`: the parsed element is the element written, up to white space between child
elements. -/
inductive Same : Dom → Xml → Prop
  | empty {tag attrs} : Same (.elem tag attrs []) (.leaf tag attrs "")
  | leaf {tag attrs t} : t ≠ "" → Same (.elem tag attrs [.text t]) (.leaf tag attrs t)
  | node {tag attrs kids xs} : SameKids kids xs → Same (.elem tag attrs kids) (.node tag attrs xs)
  | mixed {tag attrs kids ps} : SameParts kids (mergeParts ps) →
      Same (.elem tag attrs kids) (.mixed tag attrs ps)
/-- Children, in order, ignoring white space. -/
inductive SameKids : List Dom → List Xml → Prop
  | nil : SameKids [] []
  | blank {s ks xs} : Blank s → SameKids ks xs → SameKids (.text s :: ks) xs
  | cons {k x ks xs} : Same k x → SameKids ks xs → SameKids (k :: ks) (x :: xs)
/-- Mixed content, piece by piece. -/
inductive SameParts : List Dom → List Part → Prop
  | nil : SameParts [] []
  | text {s ks ps} : SameParts ks ps → SameParts (.text s :: ks) (.text s :: ps)
  | elem {k tag attrs t ks ps} : Same k (.leaf tag attrs t) → SameParts ks ps →
      SameParts (k :: ks) (.elem tag attrs t :: ps)
end

/-- Text that needs no escaping: legal characters, no `<`, `&`, carriage return or `]]>`. -/
def SafeText (s : String) : Prop :=
  (∀ c ∈ s.toList, isXmlChar c = true ∧ c ≠ '<' ∧ c ≠ '&' ∧ c ≠ '\r') ∧
  ¬ [']', ']', '>'] <:+: s.toList

/-- Attribute values that need no escaping: also no double quote, newline or tab. -/
def SafeAttr (s : String) : Prop :=
  ∀ c ∈ s.toList, isXmlChar c = true ∧ c ≠ '<' ∧ c ≠ '&' ∧ c ≠ '"' ∧ c ≠ '\n' ∧ c ≠ '\t' ∧ c ≠ '\r'

/-- A tag or attribute name. -/
def Name (s : String) : Prop := s ≠ "" ∧ ∀ c ∈ s.toList, isNameChar c = true

/-- Attributes with names, distinct, and safe values. -/
def SafeAttrs (as : Attrs) : Prop :=
  (∀ a ∈ as, Name a.1 ∧ SafeAttr a.2) ∧ (as.map Prod.fst).Nodup

def SafePart : Part → Prop
  | .text s => SafeText s
  | .elem tag attrs t => Name tag ∧ SafeAttrs attrs ∧ SafeText t

mutual
/-- Nothing in the element needs escaping. -/
def Safe : Xml → Prop
  | .node tag attrs kids => Name tag ∧ SafeAttrs attrs ∧ SafeAll kids
  | .leaf tag attrs t => Name tag ∧ SafeAttrs attrs ∧ SafeText t
  | .mixed tag attrs ps => Name tag ∧ SafeAttrs attrs ∧ ∀ p ∈ mergeParts ps, SafePart p
def SafeAll : List Xml → Prop
  | [] => True
  | x :: xs => Safe x ∧ SafeAll xs
end

end Verif.Xml.Spec
