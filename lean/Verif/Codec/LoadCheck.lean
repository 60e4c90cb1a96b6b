import Verif.Codec.LoadSpec
import Verif.Codec.OrderCheck
/-
The reader methods store values of the right kind.
-/
namespace Verif.Codec.Load
open Verif.Py Verif.Num Verif.Xml Verif.Xml.Spec Verif.Codec.Spec

/-- Strings a conversion gives are of one of the types. -/
def convStr (alts : List (STy Cls)) : Conv → Bool
  | .text | .str => alts.contains .str || decide (alts = [.format])
  | .intOrText => alts.contains .strNotInt
  | .int0OrText => decide (alts = [.int, .alignment])
  | _ => true

def atomStr (alts : List (STy Cls)) : RAtom RM → Bool
  | .conv c => convStr alts c
  | _ => true

/-- A statement stores values that fit the attribute. -/
def itemStr (g : Field Cls) : RItem RM → Bool
  | .text _ c => g.shape = .one && convStr g.alts c
  | .noKids _ => true
  | .attr _ _ c _ => g.shape = .one && convStr g.alts c
  | .required _ _ => g.shape = .one && g.alts.contains .str
  | .one _ _ _ alts _ _ => g.shape = .one && alts.all fun a => atomStr g.alts a.2
  | .many _ _ alts _ max =>
    (match g.shape with
      | .many (some n) => (match max with | some m => m ≤ n | none => false)
      | .many none => true
      | .first => true
      | _ => false) && alts.all fun a => atomStr g.alts a.2
  | .flat _ alts _ =>
    (match g.shape with
      | .many none => true
      | .first => true
      | _ => false) && alts.all fun a => atomStr g.alts a.2
  | .choice _ alts _ => g.shape = .one && alts.all fun a => atomStr g.alts a.2
  | .admin => true

/-- All attributes a statement may store. -/
def itemOk (c : Cls) (ri : RItem RM) : Bool :=
  (covered c).all fun g => g.param ≠ ri.key || itemStr g ri

/-- The statements of a method. -/
def methOk : RMethod Cls RM → Bool
  | .node c items => items.all (itemOk c)
  | .mixed c items key tags _ =>
    items.all (itemOk c) && items.all (fun ri => ri.key ≠ key) &&
    (covered c).all fun g => g.param ≠ key || g.shape = .mixed && g.alts.contains .str &&
      tags.all fun x => match rm x.2 x.1 with
        | .node c' _ => g.alts.contains (.cls c')
        | _ => false
  | .ref cls dest =>
    match dictGet Verif.Ref.refClasses cls with
    | some rc => dest = none || rc.accepted.all fun d => enumOk ⟨"IdentifiableSubTypes", d⟩
    | none => true
  | .bad _ => true

theorem meths_fixed : ∀ n < 202, methOk (rm (RM.ofNat n) "") = true := by decide +kernel

theorem meths_ok (m : RM) (t : String) : methOk (rm m t) = true := by
  by_cases hb : byTag m = true
  · cases m <;> simp only [byTag, Bool.false_eq_true] at hb
    · show methOk (Reader.multi_language_long_name t) = true
      unfold Reader.multi_language_long_name
      split <;> first | rfl | decide +kernel
    · show methOk (Reader.multi_language_overview_paragraph t) = true
      unfold Reader.multi_language_overview_paragraph
      split <;> first | rfl | decide +kernel
    · show methOk (Reader.port_in_composition_type_instance_ref t) = true
      unfold Reader.port_in_composition_type_instance_ref
      split <;> first | rfl | decide +kernel
  · rw [rm_fixed (by simpa using hb) t ""]
    have h : m.ctorIdx < 202 := by cases m <;> decide
    have := meths_fixed _ h
    rwa [RM.ofNat_ctorIdx] at this

/-- The attribute of the constructor argument, as far as it is covered. -/
def coveredAs (f : Field Cls) (g : Field Cls) : Bool :=
  g.param = f.param && g.attr = f.attr &&
  (match f.shape, g.shape with
    | .one, .one => true
    | .mixed, .mixed => true
    | .many _, .many _ => true
    | .many _, .first => true
    | _, _ => false) &&
  (g.shape = .mixed || g.alts = f.alts) &&
  (!g.alts.contains .numFloat || g.alts.contains .int)

/-- The class. -/
def classOk (c : Cls) : Bool :=
  decide (((covered c).map (·.attr)).Nodup) && decide (((covered c).map (·.param)).Nodup) &&
  ((Schema.ctor c).all fun f =>
    if f.attr = "service_kind" then f.alts = [.member "ServiceKind"] && f.shape = .one
    else (covered c).any (coveredAs f)) &&
  (covered c).all fun g => (g.shape ≠ .mixed || g.attr = "parts") && g.alts.all fun a =>
    match a with
    | .refTo _ ds => g.shape = .one && g.attr = "port_ref" && sides c = some ds
    | .member _ => false
    | _ => true

theorem classes_ok' : ∀ n < 186, classOk (Cls.ofNat n) = true := by decide +kernel

theorem classes_ok (c : Cls) : classOk c = true := by
  have hn : c.ctorIdx < 186 := by cases c <;> decide
  have := classes_ok' c.ctorIdx hn
  rwa [Cls.ofNat_ctorIdx] at this

end Verif.Codec.Load
