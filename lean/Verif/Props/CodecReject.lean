import Verif.Codec.Admin
import Verif.Props.CodecOrder
/-
C50: an element can be read if its parts can be.
C52: administrative data makes no difference.
-/
namespace Verif.Props.CodecReject
open Verif.Py Verif.Num Verif.Xml Verif.Xml.Spec Verif.Codec Verif.Codec.Spec Verif.Codec.Reject
open Verif.Props.CodecOrder

/-! ### C50 -/

/-- C50 (partial): if the parts of an element can be read, none of them is one that the constructor
rejects, the mandatory ones are there, sizes are not negative, and alignments and display formats
match their patterns, then the element is read as the object with these parts as its attributes; in
particular no type test of a constructor fails.
(Missing: the elements with other parts, which cannot be read, `C50_counterexample`.) -/
theorem C50_readable_partial (m : RM) (t : String) (as : Attrs) (ds : List Dom) (c : Cls)
    (data : Data Cls) (hc : objClass m t = some c) (hg : gather m (.elem t as ds) = .ok data)
    (hno : ∀ tag ∈ rejected c, firstElem tag ds = none)
    (hreq : ¬ incomplete c data) (hval : ¬ unaccepted c data) :
    readWith tables m (.elem t as ds) = .ok (made c data) := by
  obtain ⟨h1, h2⟩ := read_args hc hg hno
  rw [h2]
  exact (build_outcome h1).2.2 hreq hval

/-- C50: if something mandatory is missing the exception is TypeError; for a negative size, and for
an alignment or display format that does not match its pattern, it is ValueError. -/
theorem C50_errors (m : RM) (t : String) (as : Attrs) (ds : List Dom) (c : Cls)
    (data : Data Cls) (hc : objClass m t = some c) (hg : gather m (.elem t as ds) = .ok data)
    (hno : ∀ tag ∈ rejected c, firstElem tag ds = none) :
    (incomplete c data → readWith tables m (.elem t as ds) = .error .typeError) ∧
    (¬ incomplete c data → unaccepted c data →
      readWith tables m (.elem t as ds) = .error .valueError) := by
  obtain ⟨h1, h2⟩ := read_args hc hg hno
  rw [h2]
  exact ⟨(build_outcome h1).1, (build_outcome h1).2.1⟩

/-- C50 is false: an element with a part that its constructor rejects is never read, although each
part of it can be; if nothing else is wrong with it the exception is TypeError. -/
theorem C50_counterexample (m : RM) (t : String) (as : Attrs) (ds : List Dom) (c : Cls)
    (tag : String) (hc : objClass m t = some c) (ht : tag ∈ rejected c)
    (hs : (firstElem tag ds).isSome = true) :
    (∃ e, readWith tables m (.elem t as ds) = .error e) ∧
    (∀ data, gather m (.elem t as ds) = .ok data →
      readWith tables m (.elem t as ds) = .error .typeError) := by
  obtain ⟨e, h1, -, h3⟩ := read_rejected hc ht hs
  refine ⟨⟨e, h1⟩, ?_⟩
  intro data hd
  rw [h1, h3 data hd]

/-- C50 for `read_str_elem`: every identifiable element with an introduction or annotations is
unreadable. -/
theorem C50_identifiable (typeName : Option String) (m : RM) (t : String) (as : Attrs)
    (ds : List Dom) (c : Cls) (tag : String) (hm : readerOf typeName t = some m)
    (hc : objClass m t = some c) (hid : identifiable c = true)
    (ht : tag = "INTRODUCTION" ∨ tag = "ANNOTATIONS") (hs : (firstElem tag ds).isSome = true) :
    ∃ e, readTreeElem typeName (.elem t as ds) = .error e := by
  have : tag ∈ rejected c := by
    unfold rejected
    rw [if_pos hid]
    rcases ht with rfl | rfl <;> simp
  obtain ⟨h, -⟩ := C50_counterexample m t as ds c tag hc this hs
  simp only [readTreeElem, hm]
  exact h

/-! #### Cases -/

/-- A unit with an introduction. -/
def introduced : List Dom :=
  [.elem "SHORT-NAME" [] [.text "Percent"], .elem "INTRODUCTION" [] []]

example : readerOf none "UNIT" = some .unit ∧ objClass .unit "UNIT" = some .Unit ∧
    identifiable .Unit = true ∧ (firstElem "INTRODUCTION" introduced).isSome = true := by
  decide +kernel

def isOk {α : Type} : Except PyErr α → Bool
  | .ok _ => true
  | .error _ => false

example : isOk (gather .unit (.elem "UNIT" [] introduced)) = true := by decide +kernel

/-- The arguments for the unit of C48. -/
def unitData : Data Cls := match gather .unit unitDom1 with | .ok d => d | .error _ => []

theorem unit_gather : gather .unit unitDom1 = .ok unitData := by
  have h : isOk (gather .unit unitDom1) = true := by decide +kernel
  unfold unitData
  cases hg : gather .unit unitDom1 with
  | ok d => rfl
  | error e => rw [hg] at h; cases h

example : readWith tables .unit unitDom1 = .ok (made .Unit unitData) := by
  refine C50_readable_partial .unit "UNIT" _ _ .Unit _ (by decide +kernel) unit_gather ?_ ?_ ?_
  · intro tag ht
    have : (rejected .Unit).all (fun tag => (firstElem tag [.elem "SHORT-NAME" [] [.text "Percent"],
      .elem "FACTOR-SI-TO-UNIT" [] [.text "0.5"]]).isNone) = true := by decide +kernel
    simpa using List.all_eq_true.1 this tag ht
  · have : (Schema.ctor .Unit).all (fun f => !f.req || (lastOf unitData f.param).isSome) = true := by
      decide +kernel
    rintro ⟨f, hf, hr, hl⟩
    have := List.all_eq_true.1 this f hf
    simp [hr, hl] at this
  · rintro (⟨f, hf, hp, -⟩ | ⟨h, -⟩ | ⟨h, -⟩) <;> try cases h
    have : (Schema.ctor .Unit).all (fun f => decide (f.param ∉ sizes)) = true := by decide +kernel
    have := List.all_eq_true.1 this f hf
    simp [hp] at this

/-- An array element of size -1. -/
def arrayElement : Dom :=
  .elem "IMPLEMENTATION-DATA-TYPE-ELEMENT" []
    [.elem "SHORT-NAME" [] [.text "Elem"], .elem "ARRAY-SIZE" [] [.text "-1"]]

def arrayData : Data Cls :=
  match gather .implementation_data_type_element arrayElement with | .ok d => d | .error _ => []

def hasNegative (d : Data Cls) : Bool :=
  match lastOf d "array_size" with
  | some (some (.num (.int i))) => i < 0
  | _ => false

example : isOk (gather .implementation_data_type_element arrayElement) = true ∧
    hasNegative arrayData = true ∧ objClass .implementation_data_type_element
      "IMPLEMENTATION-DATA-TYPE-ELEMENT" = some .ImplementationDataTypeElement ∧
    ((Schema.ctor .ImplementationDataTypeElement).any fun f => f.param = "array_size") = true := by
  decide +kernel

/-- Properties with an alignment of no known form. -/
def oddAlignment : Dom :=
  .elem "SW-DATA-DEF-PROPS-CONDITIONAL" [] [.elem "SW-ALIGNMENT" [] [.text "PACKED"]]

def oddData : Data Cls :=
  match gather .sw_data_def_props_conditional oddAlignment with | .ok d => d | .error _ => []

def alignmentOf (d : Data Cls) : String :=
  match lastOf d "alignment" with
  | some (some (.str s)) => s
  | _ => ""

theorem odd_gather : gather .sw_data_def_props_conditional oddAlignment = .ok oddData := by
  have h : isOk (gather .sw_data_def_props_conditional oddAlignment) = true := by decide +kernel
  unfold oddData
  cases hg : gather .sw_data_def_props_conditional oddAlignment with
  | ok d => rfl
  | error e => rw [hg] at h; cases h

example : readWith tables .sw_data_def_props_conditional oddAlignment = .error .valueError := by
  refine (C50_errors .sw_data_def_props_conditional "SW-DATA-DEF-PROPS-CONDITIONAL" _ _
    .SwDataDefPropsConditional _ (by decide +kernel) odd_gather ?_).2 ?_ ?_
  · intro tag ht
    have : rejected .SwDataDefPropsConditional = [] := by decide +kernel
    rw [this] at ht
    cases ht
  · rintro ⟨f, hf, hr, hl⟩
    have : (Schema.ctor .SwDataDefPropsConditional).all (fun f => !f.req) = true := by
      decide +kernel
    have := List.all_eq_true.1 this f hf
    simp [hr] at this
  · refine .inr (.inl ⟨rfl, "PACKED", ?_, ?_⟩)
    · have h : alignmentOf oddData = "PACKED" := by decide +kernel
      unfold alignmentOf at h
      split at h
      · rename_i s hs; rw [hs, h]
      · exact absurd h (by decide)
    · rw [← Pattern.alignment_iff]
      decide +kernel

example : formatRx.Begins "%-5.2f V".toList ∧ ¬ formatRx.Begins "5.2f".toList ∧
    ¬ formatRx.Begins "%5.f".toList ∧ alignmentRx.Begins "0x".toList ∧
    alignmentRx.Begins "8 bytes".toList ∧ ¬ alignmentRx.Begins " 8".toList := by
  simp only [← Pattern.alignment_iff, ← Pattern.format_iff]
  decide +kernel

/-! ### C52 -/

/-- C52: administrative data with special data groups, wherever it is in an identifiable element,
makes no difference to what is read.  As the object is the same as without, the data is gone when
it is saved. -/
theorem C52_ignored (m : RM) (t : String) (as : Attrs) (c : Cls) (pre post : List Dom)
    (a : Attrs) (k : List Dom) (hc : objClass m t = some c) (hid : identifiable c = true)
    (hk : adminOk k = true) (hpre : firstElem "ADMIN-DATA" pre = none)
    (hpost : firstElem "ADMIN-DATA" post = none) :
    readWith tables m (.elem t as (pre ++ .elem "ADMIN-DATA" a k :: post)) =
      readWith tables m (.elem t as (pre ++ post)) := by
  apply admin_same hc hid
  · intro tag htag
    simp only [first_append, firstElem, hasTag]
    simp [Ne.symm htag]
  · intro u a' k' h
    simp only [first_append, hpre, Option.none_or, firstElem, hasTag, decide_true, if_true] at h
    cases h
    exact hk
  · intro u a' k' h
    simp only [first_append, hpre, hpost, Option.none_or] at h
    cases h

/-- C52: other administrative data makes the element unreadable, for example that without special
data groups. -/
theorem C52_unreadable (m : RM) (t : String) (as : Attrs) (c : Cls) (pre post : List Dom)
    (a : Attrs) (k : List Dom) (hc : objClass m t = some c) (hid : identifiable c = true)
    (hk : adminOk k = false) (hpre : firstElem "ADMIN-DATA" pre = none) :
    ∃ e, readWith tables m (.elem t as (pre ++ .elem "ADMIN-DATA" a k :: post)) = .error e :=
  admin_fails hc hid (u := "ADMIN-DATA") (a := a) (k := k)
    (by simp only [first_append, hpre, Option.none_or, firstElem, hasTag, decide_true, if_true]) hk

/-- Administrative data with a special data group, and with only a language. -/
def groups : List Dom :=
  [.elem "SDGS" [] [.elem "SDG" [("GID", "tool")] [.elem "SD" [("GID", "key")] [.text "value"]]]]

def languageOnly : List Dom := [.elem "LANGUAGE" [] [.text "EN"]]

example : objClass .unit "UNIT" = some .Unit ∧ identifiable .Unit = true ∧ adminOk groups = true ∧
    adminOk languageOnly = false := by decide +kernel

end Verif.Props.CodecReject
