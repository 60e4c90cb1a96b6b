import Verif.Codec.PortSpecSpec
import Verif.Codec.EventKeep
import Verif.Props.SwcComSpec
/-
What is read of interfaces for communication specifications, before and after loading.
-/
set_option linter.unusedSimpArgs false
namespace Verif.Codec.PortSpec
open Verif.Py Verif.Ref Verif.Codec Verif.Codec.Spec Verif.Codec.Find Verif.Codec.FindSpec Verif.Pkg.Spec
open Verif.Codec.Connect (field_attr)
open Verif.Codec.ConnectSpec Verif.Codec.PortSpecSpec
open Verif.Codec.Owner (shortName)
open Verif.Codec.TypeHeader (attr variants locate normPlace name_attr get_norm variants_norm)
open Verif.Codec.Event (members_norm locate_norm ref_inj)
open Verif.Props.SwcComSpec (HasItems kindOf make_many C34_single SpecOf)

/-! ### After loading -/

theorem policy_kept (c : Cls) : kept? c "impl_policy" = true := by
  have h : ∀ n < 186, kept? (Cls.ofNat n) "impl_policy" = true := by decide +kernel
  have := h c.ctorIdx (by cases c <;> decide)
  rwa [Cls.ofNat_ctorIdx] at this

theorem props_norm (b : Bool) (v : Val Cls) : propsQueued (normVal tables b v) = propsQueued v := by
  cases v with
  | obj c fs =>
    simp only [normVal, propsQueued, attr]
    rw [get_norm c _ (policy_kept c) fs]
    cases dictGet fs "impl_policy" with
    | none => rfl
    | some x => cases x <;> simp [normVal]
  | _ => simp [normVal, propsQueued, attr]

theorem queued_norm (b : Bool) (x : Val Cls) : isQueued (normVal tables b x) = isQueued x := by
  obtain ⟨b', h⟩ := TypeHeader.attr_norm b x "sw_data_def_props" (by decide)
  unfold isQueued
  rw [h, variants_norm]
  cases variants (attr x "sw_data_def_props") with
  | none => rfl
  | some vs =>
    cases vs with
    | nil => rfl
    | cons v vs => exact props_norm false v

theorem iface_norm (group : List String → Bool) (way : List String) (b : Bool) (v : Val Cls) :
    ifaceOf group way (normVal tables b v) = ifaceOf group way v := by
  obtain ⟨b1, h1⟩ := members_norm b v (a := "data_elements") (by decide)
  obtain ⟨b2, h2⟩ := members_norm b v (a := "operations") (by decide)
  obtain ⟨b3, h3⟩ := Event.attr_norm b v (a := "mode_group") (by decide)
  cases v with
  | obj c fs =>
    rw [normVal] at h1 h2 h3 ⊢
    cases c with
    | SenderReceiverInterface =>
      simp only [ifaceOf, h1, List.map_map]
      exact congrArg _ (List.map_congr_left fun x _ => by
        simp only [Function.comp_apply, dataItem, name_attr, queued_norm])
    | ClientServerInterface =>
      simp only [ifaceOf, h2, List.map_map]
      exact congrArg _ (List.map_congr_left fun x _ => by simp only [Function.comp_apply, opItem, name_attr])
    | ModeSwitchInterface =>
      simp only [ifaceOf, h3, Option.map_map, Function.comp_def, name_attr]
    | _ => rfl
  | _ => simp [normVal, ifaceOf]

theorem specs_norm {α : Type} (acc : Swc.Accepts α) (group : List String → Bool) (ps : List Pkg) (side : Swc.Side)
    (ref : String) (kwargs : Swc.Args α) :
    specsFor acc group (normPkgs ps) side ref kwargs = specsFor acc group ps side ref kwargs := by
  unfold specsFor
  rw [locate_norm]
  cases locate ps ref with
  | error e => rfl
  | ok o =>
    cases o with
    | none => rfl
    | some p => cases p <;> simp only [Except.map, Option.map_some, normPlace, iface_norm]

/-- What the mode groups know only matters for interfaces with mode groups. -/
theorem iface_group (group group' : List String → Bool) (way : List String) (v : Val Cls)
    (h : group' way = group way ∨ ¬ ModeInterface v) : ifaceOf group' way v = ifaceOf group way v := by
  rcases h with h | h
  · cases v with
    | obj c fs => cases c <;> simp [ifaceOf, h]
    | _ => rfl
  · cases v with
    | obj c fs =>
      cases c with
      | ModeSwitchInterface =>
        cases hg : attr (.obj .ModeSwitchInterface fs) "mode_group" with
        | none => simp only [ifaceOf, hg, Option.map_none]
        | some g => exact absurd ⟨rfl, by rw [field_attr, hg]; rfl⟩ h
      | _ => rfl
    | _ => rfl

/-! ### What is made -/

theorem queued_iff (x : Val Cls) : isQueued x = true ↔ Queued x := by
  unfold isQueued Queued
  simp only [field_attr]
  constructor
  · intro h
    split at h
    · next v vs hv =>
      unfold variants at hv
      split at hv
      · next gs hg =>
        refine ⟨gs, v, hg, by rw [Option.some.inj hv]; rfl, ?_⟩
        unfold propsQueued at h
        split at h
        · next m hm => rw [hm, of_decide_eq_true h]
        · cases h
      · cases hv
    · cases h
  · rintro ⟨gs, v, h1, h2, h3⟩
    rw [h1]
    simp only [variants]
    cases hm : members (.obj .SwDataDefProps gs) "variants" with
    | nil => rw [hm] at h2; cases h2
    | cons w ws =>
      rw [hm] at h2
      cases h2
      simp only [propsQueued, h3, decide_true]

end Verif.Codec.PortSpec
