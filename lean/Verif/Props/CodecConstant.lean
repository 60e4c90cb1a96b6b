import Verif.Codec.ConstantProof
import Verif.Props.Value
import Verif.Props.CodecOlder
/-
C64: Python data given for a constant is what is read back.
-/
namespace Verif.Props.CodecConstant
open Verif.Py Verif.Num Verif.Xml Verif.Xml.Spec Verif.Value Verif.Value.Spec
open Verif.Codec Verif.Codec.Spec Verif.Codec.Constant Verif.Codec.ConstantSpec

/-- C64: a constant made of Python data that describes a value can be written, and what is read back
is a constant of that name whose value holds the data: every label, text, number and default pattern,
and all elements of arrays and records in their order. -/
theorem C64_constant (name : String) (hn : goodText name = true) (d : PyData)
    (hd : ∃ v, Describes d v) (hg : good d = true) :
    ∃ c text o, constant name d = .ok c ∧ writeStrElem none c = .ok text ∧
      readStrElem none text = .ok (.obj .ConstantSpecification [("name", .str name), ("value", o)]) ∧
      Holds d o := by
  obtain ⟨v, hd⟩ := hd
  obtain ⟨hw, o, ho, hh⟩ := constant_fine name hn hd hg
  obtain ⟨text, h1, h2⟩ := elem_rt (by decide +kernel : topOk .ConstantSpecification none none = true) hw
  refine ⟨.obj .ConstantSpecification [("name", .str name), ("value", valueObj v)], text, o, ?_, h1, ?_, hh⟩
  · rw [constant, makeConstant, (Value.C15_builds d v).2 hd]; rfl
  · rw [h2, ho]

/-- A structure: a text, an array of numbers, a value that is left out, and a structure in it. -/
def sample : PyData :=
  .tuple [.str "Config", .list [.str "R",
    .str "Left",
    .tuple [.str "Gains", .list [.str "array", .num (.int 3), .num (.int (-4)), .num (.float (.fin false 5 (-1)))]],
    .tuple [.str "Spare", .none, .num (.int 255)],
    .list [.str "Record", .none, .list [.str "A"]]]]

example : (∃ v, Describes sample v) ∧ good sample = true ∧ goodText "Default_IV" = true := by
  refine ⟨?_, by decide +kernel, by decide +kernel⟩
  have hr : ∀ m ∈ ["R", "Record"], RecordMarker m := by
    simp only [← isRecordMarker_iff]; decide +kernel
  have ha : ∀ m ∈ ["A", "array"], ArrayMarker m := by
    simp only [← isArrayMarker_iff]; decide +kernel
  refine ⟨_, .labelled (.record (hr _ (by decide)) (.cons (.plain trivial .text) (.cons
    (.labelled (.array (ha _ (by decide)) (.cons (.plain trivial .number) (.cons (.plain trivial .number)
      (.cons (.plain trivial .number) .nil))))) (.cons (.patterned (.absent ?_)) (.cons
    (.plain trivial (.record (hr _ (by decide)) (.cons (.plain trivial (.absent ?_)) (.cons
      (.plain trivial (.array (ha _ (by decide)) .nil)) .nil)))) .nil)))))⟩ <;> simp [NegativeInt]

/-- C64: other data is refused, with the error that its first fault is documented to have. -/
theorem C64_refused (name : String) (d : PyData) (e : PyErr) :
    constant name d = .error e ↔ Faulty d e := by
  rw [← Value.C15_rejects, constant, makeConstant]
  cases makeValue d <;> simp [Except.map]

example : constant "Default_IV" (.list [.str "array", .num (.int 1), .list [.str "X"]]) =
    .error .valueError := by
  simp [constant, makeConstant, makeValue, makeFromArgs, makeAll, Except.map,
    show isArrayMarker "array" = true by decide, show isArrayMarker "X" = false by decide,
    show isRecordMarker "X" = false by decide]

def unreadable (c : Val Cls) : Bool :=
  match writeStrElem none c with
  | .ok text =>
    match readStrElem none text with
    | .error e => decide (e = .parseError)
    | .ok _ => false
  | .error _ => false

/-- C64 needs data without bools: a constant made of one is written, but the text cannot be read. -/
theorem C64_findings : ∃ d c text, (∃ v, Describes d v) ∧ constant "Enabled_IV" d = .ok c ∧
    writeStrElem none c = .ok text ∧ readStrElem none text = .error .parseError := by
  have h : unreadable (.obj .ConstantSpecification [("name", .str "Enabled_IV"),
      ("value", valueObj (.numerical none (some (.bool true))))]) = true := by decide +kernel
  unfold unreadable at h
  split at h
  · rename_i text ht
    split at h
    · rename_i e he
      simp only [decide_eq_true_eq] at h
      subst h
      refine ⟨.bool true, _, text, ⟨_, .plain trivial .bool⟩, ?_, ht, he⟩
      rw [constant, makeConstant, (Value.C15_builds (.bool true) _).2 (.plain trivial .bool)]
      rfl
    · cases h
  · cases h

end Verif.Props.CodecConstant
