import Verif.Codec.Roundtrip
/-
C21: value specifications survive XML.
-/
namespace Verif.Props.CodecValue
open Verif.Py Verif.Num Verif.Codec Verif.Codec.Spec

/-- The value specification classes (element.py 2641-2828). -/
def valueClasses : List Cls :=
  [.TextValueSpecification, .NumericalValueSpecification, .NotAvailableValueSpecification,
   .ArrayValueSpecification, .RecordValueSpecification, .ApplicationValueSpecification,
   .ConstantReference]

/-- The classes objects of these classes consist of. -/
def parts : List Cls :=
  valueClasses ++
  [.ConstantSpecification, .SwValueCont, .SwAxisCont, .SwValues, .ValueList, .ValueGroup,
   .SingleLanguageUnitNames, .Subscript, .Superscript, .MultilanguageLongName, .LanguageLongName,
   .MultiLanguageOverviewParagraph, .LanguageOverviewParagraph, .TechnicalTerm]

theorem parts_closed : closedFor tables firstOnly (fun _ => []) (fun _ => []) parts = true := by decide +kernel

/-- C21: a value specification of any kind and nesting that is written and read back is the same,
except that floats without fractional part come back as ints. -/
theorem C21_survives (c : Cls) (hc : c ∈ valueClasses) (v : Val Cls) (h : WellFormed c v) :
    Intact none none v :=
  intact parts_closed (List.mem_append_left _ hc)
    ((by decide +kernel : ∀ c ∈ valueClasses, topOk c none none = true) c hc) h

/-- C21 for constants holding a value specification, and for the parts of application values. -/
theorem C21_constants (c : Cls)
    (hc : c ∈ [Cls.ConstantSpecification, .SwValueCont, .SwAxisCont]) (v : Val Cls)
    (h : WellFormed c v) : Intact none none v :=
  intact parts_closed ((by decide +kernel : ∀ c ∈ [Cls.ConstantSpecification, .SwValueCont,
    .SwAxisCont], c ∈ parts) c hc) ((by decide +kernel : ∀ c ∈ [Cls.ConstantSpecification, .SwValueCont, .SwAxisCont],
    topOk c none none = true) c hc) h

/-- An array of a record, a text, a number and an application value. -/
def sample : Val Cls :=
  .obj .ArrayValueSpecification
    [("label", .str "arr"),
     ("elements", .list
       [.obj .RecordValueSpecification
          [("fields", .list
            [.obj .NumericalValueSpecification
               [("label", .str "x"), ("value", .num (.float (.fin true 15 (-1))))],
             .obj .NotAvailableValueSpecification [("default_pattern", .num (.int 255))]])],
        .obj .TextValueSpecification [("value", .str "a b")],
        .obj .NumericalValueSpecification [("value", .num (.int (-3)))],
        .obj .ConstantReference
          [("constant_ref", .ref ⟨"ConstantRef", "/C/x", "CONSTANT_SPECIFICATION"⟩)],
        .obj .ApplicationValueSpecification
          [("category", .str "VALUE"),
           ("sw_value_cont", .obj .SwValueCont
             [("sw_values_phys", .obj .SwValues
               [("values", .list [.num (.int 1),
                 .obj .ValueGroup [("values", .list [.str "on", .num (.float (.fin false 25 (-2)))])]])])])]])]

example : WellFormed .ArrayValueSpecification sample := by decide +kernel

example : noWhole sample = true := by decide +kernel

/-- Ints of any size, texts of any length: the hypotheses do not depend on a bound. -/
example (n : Int) : WellFormed .ArrayValueSpecification (.obj .ArrayValueSpecification
    [("elements", .list [.obj .NumericalValueSpecification [("value", .num (.int n))]])]) := by
  constructor <;> rfl

/-- What does not survive: an empty text comes back as no value, a boolean given as a number is
written as "True" and cannot be read, a whole float comes back as an int. -/
theorem C21_findings :
    (∃ text, writeStrElem none (.obj .TextValueSpecification [("value", .str "")]) = .ok text ∧
      readStrElem none text = .ok (.obj .TextValueSpecification [])) ∧
    (∃ text, writeStrElem none (.obj .NumericalValueSpecification [("value", .bool true)]) =
        .ok text ∧ readStrElem none text = .error .parseError) ∧
    (∃ text, writeStrElem none (.obj .NumericalValueSpecification
        [("value", .num (.float (.fin false 2 0)))]) = .ok text ∧
      readStrElem none text = .ok (.obj .NumericalValueSpecification [("value", .num (.int 2))])) := by
  refine ⟨⟨_, rfl, rfl⟩, ⟨_, rfl, rfl⟩, ?_⟩
  exact elem_rt (by decide +kernel : topOk .NumericalValueSpecification none none = true)
    (by decide +kernel)

end Verif.Props.CodecValue
