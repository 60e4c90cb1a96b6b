import Verif.Codec.Spec
/-
What becomes of a text with inline elements when it is written and read back.
-/
namespace Verif.Codec.Spec

/-- The text before the first inline element. -/
def leading : List (Val Cls) → String
  | .str s :: vs => s ++ leading vs
  | _ => ""

/-- The inline elements in order, every text after one of them replaced by `lead`.  `none` if one
of the elements is not `known`, or if there is a text to replace and `lead` is empty. -/
def echo (known : Cls → Bool) (lead : String) : List (Val Cls) → Option (List (Val Cls))
  | [] => some []
  | .str _ :: vs => echo known lead vs
  | .obj c fs :: vs =>
    if known c = false then none
    else if leading vs = "" then (echo known lead vs).map fun us => .obj c fs :: us
    else if lead = "" then none
    else (echo known lead vs).map fun us => .obj c fs :: .str lead :: us
  | _ :: _ => none

/-- What comes back of the parts of a text: the text at the beginning, then the inline elements,
each followed by the text at the beginning once more where there was a text after it.  `none` if it
cannot be read. -/
def readBack (known : Cls → Bool) (vs : List (Val Cls)) : Option (List (Val Cls)) :=
  (echo known (leading vs) vs).map fun us =>
    if leading vs = "" then us else .str (leading vs) :: us

/-- A part of a text: a string or a well-formed inline element of one of the classes `cs`. -/
def Inline (cs : List Cls) (v : Val Cls) : Prop :=
  (∃ s, v = .str s ∧ plainText s = true) ∨ ∃ c ∈ cs, WellFormed c v

/-- The attribute `parts`; an empty list is the same as none. -/
def partsOf (vs : List (Val Cls)) : List (String × Val Cls) :=
  if vs = [] then [] else [("parts", .list vs)]

/-- What comes back of texts in several languages: each of them, or `none` if one of them cannot
be read. -/
def textsBack (known : Cls → Bool) (c : Cls) :
    List (Verif.Enums.Member × List (Val Cls)) → Option (List (Val Cls))
  | [] => some []
  | (m, vs) :: ls =>
    match readBack known vs, textsBack known c ls with
    | some us, some os => some (.obj c ([("language", .enum m)] ++ partsOf us) :: os)
    | _, _ => none

/-- The inline elements a text can have. -/
def inlineOf : Cls → List Cls
  | .LanguageLongName | .LanguageOverviewParagraph =>
    [.EmphasisText, .IndexEntry, .Subscript, .TechnicalTerm]
  | .LanguageVerbatim => [.Break, .EmphasisText, .TechnicalTerm]
  | .SingleLanguageUnitNames => [.Subscript, .Superscript]
  | _ => [.Break, .EmphasisText, .IndexEntry, .Subscript, .TechnicalTerm]

/-- Those the readers of texts in a language accept. -/
def term (c : Cls) : Bool := c = .TechnicalTerm

/-- A language with an XML text. -/
def Lang (m : Verif.Enums.Member) : Prop := m.cls = "Language" ∧ enumOk m = true

instance (m : Verif.Enums.Member) : Decidable (Lang m) := inferInstanceAs (Decidable (_ ∧ _))

/-- Those the reader of unit names accepts. -/
def script (c : Cls) : Bool := c = .Subscript || c = .Superscript

end Verif.Codec.Spec
