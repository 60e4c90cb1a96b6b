import Verif.Codec.AccessSpec
import Verif.Codec.EventKeep
/-
What `create_port_access` reads of documents, before and after loading.
-/
set_option linter.unusedSimpArgs false
namespace Verif.Codec.Access
open Verif.Py Verif.Ref Verif.Codec Verif.Codec.Spec Verif.Codec.Find Verif.Codec.FindSpec Verif.Pkg.Spec
open Verif.Codec.Connect (portKind field_attr elem_wf member_wf of_cls)
open Verif.Codec.ConnectSpec Verif.Codec.EventSpec Verif.Codec.AccessSpec
open Verif.Codec.Owner (shortName)
open Verif.Codec.TypeHeader (attr refOf locate normPlace name_attr kept_list)
open Verif.Codec.Event (Known hasName named_wf locate_norm locate_there refOf_some ref_norm group_named kind_class IsApp
  port_named called_iff)
open Verif.Swc (AccElem AccIface AccPort Point Extra PortKind Slot)

/-! ### After loading -/

theorem params_kept (c : Cls) : kept? c "parameters" = true := by
  have h : ∀ n < 186, kept? (Cls.ofNat n) "parameters" = true := by decide +kernel
  have := h c.ctorIdx (by cases c <;> decide)
  rwa [Cls.ofNat_ctorIdx] at this

theorem members_norm (b : Bool) (v : Val Cls) {a : String} (ha : a = "parameters" ∨ a ∈ Event.readNames) :
    ∃ b', members (normVal tables b v) a = (members v a).map (normVal tables b') := by
  cases v with
  | obj c fs =>
    rw [normVal]
    rcases ha with rfl | ha
    · exact ⟨_, kept_list (params_kept c) fs⟩
    · exact ⟨_, kept_list (Event.read_kept c a ha) fs⟩
  | _ => exact ⟨false, by simp [normVal, members]⟩

theorem parts_norm (b : Bool) (v : Val Cls) {a : String} (ha : a = "parameters" ∨ a ∈ Event.readNames)
    (way : List String) :
    (members (normVal tables b v) a).map (partOf way) = (members v a).map (partOf way) := by
  obtain ⟨b', h⟩ := members_norm b v ha
  rw [h, List.map_map]
  exact List.map_congr_left fun x _ => by simp only [Function.comp_apply, partOf, name_attr]

theorem ifaceAs_norm (K : Known) (way : List String) (b : Bool) (v : Val Cls) :
    ifaceAs K way (normVal tables b v) = ifaceAs K way v := by
  have h1 := parts_norm b v (a := "data_elements") (.inr (by decide)) way
  have h2 := parts_norm b v (a := "operations") (.inr (by decide)) way
  have h5 := parts_norm b v (a := "parameters") (.inl rfl) way
  obtain ⟨b', h3⟩ := Event.attr_norm b v (a := "mode_group") (by decide)
  have h4 : ((attr v "mode_group").map (normVal tables b')).map (groupOf K way) =
      (attr v "mode_group").map (groupOf K way) := by
    rw [Option.map_map]
    congr 1
    funext g
    simp only [Function.comp_apply, groupOf, name_attr]
  cases v with
  | obj c fs =>
    simp only [normVal] at h1 h2 h3 h5
    cases c <;> simp only [normVal, ifaceAs, h1, h2, h3, h4, h5]
  | _ => simp only [normVal, ifaceAs]

theorem iface_norm (ps : List Pkg) (K : Known) (r : Option String) :
    ifaceAt (normPkgs ps) K r = ifaceAt ps K r := by
  cases r with
  | none => rfl
  | some r =>
    simp only [ifaceAt, locate_norm]
    cases locate ps r with
    | error e => rfl
    | ok x =>
      cases x with
      | none => rfl
      | some x =>
        cases x with
        | element way v => simp only [Except.map, Option.map_some, normPlace, ifaceAs_norm]
        | _ => rfl

theorem ports_norm (ps : List Pkg) (K : Known) (way : List String) (b : Bool) (v : Val Cls) :
    portsOf (normPkgs ps) K way (normVal tables b v) = portsOf ps K way v := by
  obtain ⟨b', h⟩ := members_norm b v (a := "ports") (.inr (by decide))
  unfold portsOf
  rw [h, List.filterMap_map]
  congr 1
  funext x
  have hk : portKind (normVal tables b' x) = portKind x := by
    cases x with
    | obj c fs => cases c <;> simp [normVal, portKind]
    | _ => simp [normVal, portKind]
  simp only [Function.comp_apply, portOf]
  rw [hk, name_attr, ref_norm b' x (by decide), iface_norm]

theorem access_norm (ps : List Pkg) (K : Known) (way : List String) (b : Bool) (v : Val Cls)
    (l : List (String × Extra)) :
    createAccess (normPkgs ps) K way (normVal tables b v) l = createAccess ps K way v l := by
  unfold createAccess
  rw [ports_norm]

/-! ### Without mode groups -/

/-- The interface, without the reference of the mode group. -/
def bareIface : AccIface → AccIface
  | .mode g => .mode (g.map fun e => { e with ref := none })
  | i => i

def barePort (p : AccPort) : AccPort := { p with iface := p.iface.map bareIface }

theorem name_bare (s : Settings) (key : String) (x : Extra) (p : AccPort) (e : AccElem) :
    Swc.pointName s key x (barePort p) e = Swc.pointName s key x p e := rfl

theorem make_bare (s : Settings) (key : String) (slot : Slot) (x : Extra) (p : AccPort) (e : AccElem)
    (hs : slot ≠ .modeAccess ∧ slot ≠ .modeSwitch) :
    Swc.makePoint s key slot x (barePort p) e = (Swc.makePoint s key slot x p e).map (·.map withoutGroup) := by
  unfold Swc.makePoint
  rw [name_bare]
  cases Swc.pointName s key x p e with
  | error err => rfl
  | ok n =>
    cases x.err with
    | some err => rfl
    | none => cases slot <;> first | rfl | exact absurd rfl hs.1 | exact absurd rfl hs.2

theorem make_mode (s : Settings) (key : String) (slot : Slot) (x : Extra) (p : AccPort) (e : AccElem)
    (hs : slot = .modeAccess ∨ slot = .modeSwitch) :
    Swc.makePoint s key slot x (barePort p) { e with ref := none } =
      (Swc.makePoint s key slot x p e).map (·.map withoutGroup) := by
  unfold Swc.makePoint
  rw [name_bare]
  have hn : Swc.pointName s key x p { e with ref := none } = Swc.pointName s key x p e := rfl
  rw [hn]
  cases Swc.pointName s key x p e with
  | error err => rfl
  | ok n =>
    cases x.err with
    | some err => rfl
    | none => rcases hs with rfl | rfl <;> rfl

theorem find_bare (ports : List AccPort) (n : List Char) :
    (ports.map barePort).find? (fun p => p.name.toList = n) =
      (ports.find? fun p => p.name.toList = n).map barePort := by
  rw [List.find?_map]
  rfl

theorem one_bare (s : Settings) (ports : List AccPort) (text : String) (x : Extra) :
    Swc.oneAccess s (ports.map barePort) text x =
      (Swc.oneAccess s ports text x).map (·.map withoutGroup) := by
  unfold Swc.oneAccess
  cases Swc.parseAccess text.toList with
  | error e => rfl
  | ok q =>
    obtain ⟨o, pn, en⟩ := q
    simp only [find_bare]
    cases ports.find? fun p => p.name.toList = pn with
    | none => rfl
    | some p =>
      obtain ⟨name, kind, ref, iface⟩ := p
      cases iface with
      | error e => rfl
      | ok i =>
        cases i with
        | other => rfl
        | data l =>
          simp only [Option.map_some, barePort, Except.map, bareIface, Swc.dataAccess]
          cases Swc.pickElem l en with
          | none => rfl
          | some e =>
            cases kind with
            | r =>
              simp only
              split
              · exact make_bare _ _ _ _ ⟨name, _, ref, _⟩ _ (by simp)
              · split <;> exact make_bare _ _ _ _ ⟨name, _, ref, _⟩ _ (by simp)
            | p =>
              simp only
              split <;> exact make_bare _ _ _ _ ⟨name, _, ref, _⟩ _ (by simp)
            | pr => rfl
        | params l =>
          simp only [Option.map_some, barePort, Except.map, bareIface, Swc.paramAccess]
          split
          · split <;> rfl
          · cases Swc.pickElem l en with
            | none => rfl
            | some e => exact make_bare _ _ _ _ ⟨name, _, ref, _⟩ _ (by simp)
        | ops l =>
          simp only [Option.map_some, barePort, Except.map, bareIface, Swc.callAccess]
          cases Swc.pickElem l en with
          | none => rfl
          | some e =>
            cases kind with
            | p => rfl
            | r =>
              simp only
              split <;> exact make_bare _ _ _ _ ⟨name, _, ref, _⟩ _ (by simp)
            | pr =>
              simp only
              split <;> exact make_bare _ _ _ _ ⟨name, _, ref, _⟩ _ (by simp)
        | mode g =>
          simp only [Option.map_some, barePort, Except.map, bareIface, Swc.modeAccess]
          cases g with
          | none => simp only [Option.map_none]; split <;> rfl
          | some e =>
            simp only [Option.map_some]
            split
            · rcases o.mode with _ | (_ | _) <;> cases kind <;>
                first
                | rfl
                | exact make_mode _ _ _ _ ⟨name, _, ref, _⟩ _ (.inl rfl)
                | exact make_mode _ _ _ _ ⟨name, _, ref, _⟩ _ (.inr rfl)
            · rfl

theorem create_bare (s : Settings) (ports : List AccPort) (l : List (String × Extra)) : ∀ pts : List Point,
    Swc.createAccess s (ports.map barePort) (pts.map withoutGroup) l =
      ((Swc.createAccess s ports pts l).1.map withoutGroup, (Swc.createAccess s ports pts l).2) := by
  induction l with
  | nil => intro pts; rfl
  | cons a l ih =>
    intro pts
    obtain ⟨t, x⟩ := a
    simp only [Swc.createAccess, one_bare]
    cases Swc.oneAccess s ports t x with
    | error e => rfl
    | ok o =>
      cases o with
      | none => exact ih pts
      | some pt =>
        simp only [Except.map, Option.map_some]
        rw [← ih (pts ++ [pt]), List.map_append]
        rfl

theorem ports_bare (ps : List Pkg) (K K' : Known) (way : List String) (v : Val Cls) :
    (portsOf ps K' way v).map barePort = (portsOf ps K way v).map barePort := by
  have key : ∀ x, (portOf ps K' way x).map barePort = (portOf ps K way x).map barePort := by
    intro x
    have hi : ∀ w t, bareIface (ifaceAs K' w t) = bareIface (ifaceAs K w t) := by
      intro w t
      cases t with
      | obj c fs =>
        cases c <;> simp only [ifaceAs, bareIface, Option.map_map, Function.comp_def, groupOf]
      | _ => rfl
    have ha : (ifaceAt ps K' (refOf (attr x "port_interface_ref"))).map bareIface =
        (ifaceAt ps K (refOf (attr x "port_interface_ref"))).map bareIface := by
      unfold ifaceAt
      cases refOf (attr x "port_interface_ref") with
      | none => rfl
      | some r =>
        simp only
        cases locate ps r with
        | error e => rfl
        | ok o =>
          cases o with
          | none => rfl
          | some p => cases p <;> simp only [Except.map, hi]
    unfold portOf
    cases portKind x with
    | none => rfl
    | some k => simp only [Option.map_some, barePort, ha]
  unfold portsOf
  rw [List.map_filterMap, List.map_filterMap]
  congr 1
  funext x
  exact key x

end Verif.Codec.Access
