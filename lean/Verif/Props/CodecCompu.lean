import Verif.Codec.Roundtrip
/-
C24: computation methods, data constraints and units survive XML.
-/
namespace Verif.Props.CodecCompu
open Verif.Py Verif.Num Verif.Codec Verif.Codec.Spec

/-- The classes of computation methods, constraints and units, with the tag given to
`write_str_elem` and the type name given to `read_str_elem` (element.py 1093-1578). -/
def forms : List (Cls × Option String × Option String) :=
  [(.CompuMethod, none, none), (.Computation, some "COMPU-INTERNAL-TO-PHYS", none),
   (.CompuScale, none, none), (.CompuRational, none, none), (.DataConstraint, none, none),
   (.DataConstraintRule, none, none), (.InternalConstraint, none, none),
   (.PhysicalConstraint, none, none), (.ScaleConstraint, none, none), (.Unit, none, none)]

/-- Lost: the validity of scale constraints. -/
def lost : Cls → List String
  | .ScaleConstraint => ["validity"]
  | _ => []

/-- The classes objects of these classes consist of. -/
def parts : List Cls :=
  forms.map (·.1) ++
  [.MultilanguageLongName, .LanguageLongName, .MultiLanguageOverviewParagraph,
   .LanguageOverviewParagraph, .TechnicalTerm, .CompuConst, .SingleLanguageUnitNames, .Subscript,
   .Superscript]

/-- C24: computation methods, constraints and units that are written and read back are the same,
except for the validity of scale constraints and for floats without fractional part, which come
back as ints. -/
theorem C24_survives_partial : ∀ x ∈ forms, ∀ v, WellFormed x.1 v →
    SurvivesBut lost (fun _ => []) x.2.1 x.2.2 v :=
  all_survive_but (S := parts) (by decide +kernel) (by decide +kernel)

/-- A text table, then a linear conversion. -/
def sample : Val Cls :=
  .obj .CompuMethod
    [("name", .str "Mixed"), ("category", .str "SCALE_LINEAR_AND_TEXTTABLE"),
     ("int_to_phys", .obj .Computation
       [("compu_scales", .list
          [.obj .CompuScale
             [("content", .obj .CompuRational
                [("numerator", .list [.num (.float (.fin true 405 (-1))), .num (.int 1)]),
                 ("denominator", .list [.num (.int 8)])]),
              ("lower_limit", .limit (.int 0) ⟨"IntervalType", "CLOSED"⟩),
              ("upper_limit", .limit (.int 253) ⟨"IntervalType", "OPEN"⟩)],
           .obj .CompuScale
             [("content", .obj .CompuConst [("value", .str "Error")]),
              ("lower_limit", .limit (.int 254) ⟨"IntervalType", "CLOSED"⟩),
              ("upper_limit", .limit (.int 254) ⟨"IntervalType", "CLOSED"⟩),
              ("label", .str "err"), ("mask", .num (.int 255))]]),
        ("default_value", .obj .CompuConst [("value", .num (.int 7))])]),
     ("unit_ref", .ref ⟨"UnitRef", "/U/degC", "UNIT"⟩)]

example : WellFormed .CompuMethod sample := by decide +kernel

/-- A constraint with scale constraints. -/
def constraint : Val Cls :=
  .obj .DataConstraint
    [("name", .str "C"),
     ("rules", .list [.obj .DataConstraintRule
       [("internal", .obj .InternalConstraint
          [("lower_limit", .limit (.int 0) ⟨"IntervalType", "CLOSED"⟩),
           ("upper_limit", .limit (.float (.fin false 255 (-1))) ⟨"IntervalType", "OPEN"⟩),
           ("scale_constrs", .list [.obj .ScaleConstraint
             [("lower_limit", .limit (.int 1) ⟨"IntervalType", "CLOSED"⟩),
              ("label", .str "s"),
              ("validity", .enum ⟨"ScaleConstraintValidity", "VALID"⟩)]]),
           ("monotony", .enum ⟨"Monotony", "MONOTONOUS"⟩)]),
        ("level", .num (.int 1))]])]

example : WellFormed .DataConstraint constraint := by decide +kernel

/-- What does not survive: the validity of a scale constraint; a fraction without numerator cannot
be read. -/
theorem C24_findings :
    (∃ text, writeStrElem none (.obj .ScaleConstraint
        [("label", .str "s"), ("validity", .enum ⟨"ScaleConstraintValidity", "VALID"⟩)]) = .ok text ∧
      readStrElem none text = .ok (.obj .ScaleConstraint [("label", .str "s")])) ∧
    (∃ text, writeStrElem none (.obj .CompuRational []) = .ok text ∧
      readStrElem none text = .error .typeError) ∧
    (∃ text, writeStrElem none (.obj .CompuRational
        [("numerator", .list [.num (.int 0), .num (.float (.fin false 2 0))])]) = .ok text ∧
      readStrElem none text = .ok (.obj .CompuRational
        [("numerator", .list [.num (.int 0), .num (.int 2)])])) := by
  refine ⟨elem_rt (by decide +kernel : topOk .ScaleConstraint none none = true) (by decide +kernel),
    ⟨_, rfl, rfl⟩, ?_⟩
  · exact elem_rt (by decide +kernel : topOk .CompuRational none none = true) (by decide +kernel)

end Verif.Props.CodecCompu
