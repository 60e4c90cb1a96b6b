import Verif.Codec.Roundtrip
/-
C46: component implementations and end-to-end properties survive XML.
-/
namespace Verif.Props.CodecImpl
open Verif.Py Verif.Num Verif.Codec Verif.Codec.Spec

/-- Implementations, code descriptors and end-to-end protection properties, with the tag given to
`write_str_elem` and the type name given to `read_str_elem` (element.py 377-475). -/
def forms : List (Cls × Option String × Option String) :=
  [(.SwcImplementation, none, none), (.Code, none, none),
   (.AutosarEngineeringObject, some "AUTOSAR-ENGINEERING-OBJECT", none),
   (.E2EProfileCompatibilityProps, none, none),
   (.EndToEndTransformationComSpecProps, none, none)]

/-- Lost: the UUIDs of implementations and end-to-end properties. -/
def lost : Cls → List String
  | .SwcImplementation | .E2EProfileCompatibilityProps => ["uuid"]
  | _ => []

/-- The classes objects of these classes consist of. -/
def parts : List Cls :=
  forms.map (·.1) ++
  [.MultilanguageLongName, .LanguageLongName, .MultiLanguageOverviewParagraph,
   .LanguageOverviewParagraph, .TechnicalTerm, .DocumentationBlock, .MultiLanguageParagraph,
   .MultiLanguageVerbatim, .LanguageParagraph, .LanguageVerbatim]

/-- C46: implementations with their code descriptors and end-to-end properties that are written and
read back are the same, except for the UUIDs named above. -/
theorem C46_survives : ∀ x ∈ forms, ∀ v, WellFormed x.1 v →
    SurvivesBut lost (fun _ => []) x.2.1 x.2.2 v :=
  all_survive_but (S := parts) (by decide +kernel) (by decide +kernel)

/-- An implementation with one code descriptor. -/
def sample : Val Cls :=
  .obj .SwcImplementation
    [("name", .str "Swc_Impl"),
     ("code_descriptors", .list [.obj .Code [("name", .str "Code"), ("uuid", .str "1a"),
       ("artifact_descriptors", .list [.obj .AutosarEngineeringObject
         [("label", .str "src.c"), ("category", .str "SWSRC")]])]]),
     ("behavior_ref", .ref ⟨"SwcInternalBehaviorRef", "/S/Swc/B", "SWC_INTERNAL_BEHAVIOR"⟩)]

example : WellFormed .SwcImplementation sample := by decide +kernel

end Verif.Props.CodecImpl
