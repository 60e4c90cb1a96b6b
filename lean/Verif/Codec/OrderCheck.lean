import Verif.Codec.OrderSpec
/-
Which elements the reader methods are used on: nothing in the reader depends on the order of the
parts of an element or on the text between them.
-/
namespace Verif.Codec
open Verif.Py Verif.Xml Verif.Xml.Spec

/-! ### What the reader methods may be used on -/

/-- The statement does not look at the text, and, on elements whose parts may come in any order,
not at the list of children. -/
def itemFits (list : Bool) : RItem RM → Bool
  | .text _ _ | .noKids _ => false
  | .flat _ _ _ => list
  | _ => true

/-- The method may be used on elements that are made of parts (`list = false`) or hold a list. -/
def methFits (list : Bool) : RMethod Cls RM → Bool
  | .bad _ => true
  | .node _ items => items.all (itemFits list)
  | _ => false

/-- The tag is of neither kind. -/
def exact (t : String) : Bool := decide (t ∉ recordTags) && decide (t ∉ listTags)

/-- The method may be used on elements with this tag. -/
def usable (m : RM) (t : String) : Bool :=
  exact t || (methFits (decide (t ∉ recordTags)) (rm m t))

def atomFits (t : String) : RAtom RM → Bool
  | .meth m => usable m t
  | _ => exact t

/-- The methods whose table depends on the tag. -/
def byTag : RM → Bool
  | .multi_language_long_name | .multi_language_overview_paragraph
  | .port_in_composition_type_instance_ref => true
  | _ => false

/-- The method may be used on all elements. -/
def usableAny : RAtom RM → Bool
  | .meth m => !byTag m && methFits false (rm m "")
  | _ => false

/-- `ctx` is the tag of the elements that come here if it is known. -/
def altsFit (ctx : Option String) (alts : RAlts RM) : Bool :=
  alts.all fun ta =>
    match ta.1, ctx with
    | some t, _ => atomFits t ta.2
    | none, some t => atomFits t ta.2
    | none, none => usableAny ta.2

def itemCalls : RItem RM → Bool
  | .required t _ => exact t
  | .one t _ .self alts _ _ => altsFit (some t) alts
  | .one t _ .first alts _ _ => decide (t ∉ recordTags) && altsFit none alts
  | .one _ _ (.tag t') alts _ _ => altsFit (some t') alts
  | .many t _ alts _ _ => decide (t ∉ recordTags) && altsFit none alts
  | .flat _ alts _ => altsFit none alts
  | .choice _ alts _ => alts.all fun ta => atomFits ta.1 ta.2
  | .admin => exact "ADMIN-DATA"
  | _ => true

def methCalls : RMethod Cls RM → Bool
  | .node _ items => items.all itemCalls
  | _ => true

theorem rm_fixed {m : RM} (h : byTag m = false) (t t' : String) : rm m t = rm m t' := by
  cases m <;> first | rfl | simp [byTag] at h

theorem calls_fixed : ∀ n < 202, methCalls (rm (RM.ofNat n) "") = true := by decide +kernel

/-- All calls of reader methods are on elements they may be used on. -/
theorem calls_ok (m : RM) (t : String) : methCalls (rm m t) = true := by
  by_cases hb : byTag m = true
  · cases m <;> simp only [byTag, Bool.false_eq_true] at hb
    · show methCalls (Reader.multi_language_long_name t) = true
      unfold Reader.multi_language_long_name
      split
      · decide +kernel
      · decide +kernel
      · rfl
    · show methCalls (Reader.multi_language_overview_paragraph t) = true
      unfold Reader.multi_language_overview_paragraph
      split
      · decide +kernel
      · decide +kernel
      · decide +kernel
      · decide +kernel
      · rfl
    · show methCalls (Reader.port_in_composition_type_instance_ref t) = true
      unfold Reader.port_in_composition_type_instance_ref
      split
      · decide +kernel
      · decide +kernel
      · decide +kernel
      · decide +kernel
      · rfl
  · rw [rm_fixed (by simpa using hb) t ""]
    have h : m.ctorIdx < 202 := by cases m <;> decide
    have := calls_fixed _ h
    rwa [RM.ofNat_ctorIdx] at this

theorem not_both : (recordTags.all fun t => decide (t ∉ listTags)) = true := by decide +kernel

theorem record_not_list {t : String} (h : t ∈ recordTags) : t ∉ listTags := by
  simpa using List.all_eq_true.1 not_both t h

theorem list_not_record {t : String} (h : t ∈ listTags) : t ∉ recordTags :=
  fun h' => record_not_list h' h

end Verif.Codec
