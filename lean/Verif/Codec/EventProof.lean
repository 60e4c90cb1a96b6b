import Verif.Codec.EventSpec
import Verif.Codec.ConnectMade
import Verif.Swc.EventLemmas
/-
What the methods creating events read of well-formed documents.
-/
set_option linter.unusedSimpArgs false
namespace Verif.Codec.Event
open Verif.Py Verif.Ref Verif.Codec Verif.Codec.Spec Verif.Codec.Find Verif.Codec.FindSpec Verif.Pkg.Spec
open Verif.Codec.Connect (portKind destOf refAttr change of_cls name_there member_wf field_attr elem_wf
  plain_get ref_append)
open Verif.Codec.ConnectSpec Verif.Codec.EventSpec Verif.Codec.TypeHeader
open Verif.Codec.Owner (shortName)
open Verif.Swc.EventSpec (First Required Provided Chosen Mode Wants Means)

/-! ### First entries -/

theorem first_map {α β : Type} {f : α → β} {l : List α} {P : β → Prop} {y : β} :
    First (l.map f) P y ↔ ∃ x, First l (fun x => P (f x)) x ∧ f x = y := by
  constructor
  · rintro ⟨pre, post, h, hp, hn⟩
    obtain ⟨l1, l2, rfl, rfl, h2⟩ := List.map_eq_append_iff.1 h
    obtain ⟨x, l3, rfl, rfl, rfl⟩ := List.map_eq_cons_iff.1 h2
    exact ⟨x, ⟨l1, l3, rfl, hp, fun y hy => hn _ (List.mem_map.2 ⟨y, hy, rfl⟩)⟩, rfl⟩
  · rintro ⟨x, ⟨pre, post, rfl, hp, hn⟩, rfl⟩
    refine ⟨pre.map f, post.map f, by simp, hp, fun y hy => ?_⟩
    obtain ⟨z, hz, rfl⟩ := List.mem_map.1 hy
    exact hn z hz

theorem first_filterMap {α β : Type} {f : α → Option β} {l : List α} {P : β → Prop} {y : β} :
    First (l.filterMap f) P y ↔ ∃ x, f x = some y ∧ First l (fun x => ∃ y, f x = some y ∧ P y) x := by
  constructor
  · rintro ⟨pre, post, h, hp, hn⟩
    obtain ⟨l1, l2, rfl, rfl, h2⟩ := List.filterMap_eq_append_iff.1 h
    obtain ⟨l3, x, l4, rfl, h3, hx, rfl⟩ := List.filterMap_eq_cons_iff.1 h2
    refine ⟨x, hx, l1 ++ l3, l4, by simp, ⟨y, hx, hp⟩, fun z hz => ?_⟩
    rintro ⟨w, hw, hpw⟩
    rcases List.mem_append.1 hz with hz | hz
    · exact hn w (List.mem_filterMap.2 ⟨z, hz, hw⟩) hpw
    · rw [h3 z hz] at hw; cases hw
  · rintro ⟨x, hx, pre, post, rfl, ⟨y', hy', hp⟩, hn⟩
    rw [hx] at hy'; cases hy'
    refine ⟨pre.filterMap f, post.filterMap f, by simp [hx], hp, fun z hz hpz => ?_⟩
    obtain ⟨w, hw, hwz⟩ := List.mem_filterMap.1 hz
    exact hn w hw ⟨z, hwz, hpz⟩

theorem first_congr {α : Type} {l : List α} {P Q : α → Prop} {x : α} (h : ∀ y ∈ l, P y ↔ Q y) :
    First l P x ↔ First l Q x := by
  constructor
  · rintro ⟨pre, post, rfl, hp, hn⟩
    exact ⟨pre, post, rfl, (h x (by simp)).1 hp, fun y hy hq => hn y hy ((h y (by simp [hy])).2 hq)⟩
  · rintro ⟨pre, post, rfl, hp, hn⟩
    exact ⟨pre, post, rfl, (h x (by simp)).2 hp, fun y hy hq => hn y hy ((h y (by simp [hy])).1 hq)⟩

theorem first_mem {α : Type} {l : List α} {P : α → Prop} {x : α} (h : First l P x) : x ∈ l := by
  obtain ⟨pre, post, rfl, -⟩ := h
  simp

/-! ### Names -/

/-- The object has a name that can be written. -/
structure Named (x : Val Cls) : Prop where
  name : elemName x = some (shortName x)
  ne : shortName x ≠ ""
  plain : plainText (shortName x) = true

/-- The class has a name. -/
def hasName (c : Cls) : Bool :=
  match fieldOf (tables.schema c) "name" with
  | some ⟨p, a, .one, [.str], true⟩ => p = "name" && a = "name"
  | _ => false

theorem hasName_iff {c : Cls} (h : hasName c = true) :
    fieldOf (tables.schema c) "name" = some (Schema.req "name" [.str]) := by
  unfold hasName at h
  split at h
  · next p a hf =>
    simp only [Bool.and_eq_true, decide_eq_true_eq] at h
    rw [hf, h.1, h.2]
    rfl
  · cases h

theorem named_wf {c : Cls} {fs : List (String × Val Cls)} (h : WellFormed c (.obj c fs))
    (hc : hasName c = true) : Named (.obj c fs) := by
  obtain ⟨n, h1, h2, h3, h4⟩ := name_there h (hasName_iff hc)
  exact ⟨by rw [h2]; exact h1, by rw [h2]; exact h3, by rw [h2]; exact h4⟩

/-- The attributes with objects that have names. -/
def lists : List (Cls × String) :=
  [(.ApplicationSoftwareComponentType, "ports"), (.SenderReceiverInterface, "data_elements"),
   (.ClientServerInterface, "operations"), (.ModeDeclarationGroup, "mode_declarations"),
   (.SwcInternalBehavior, "runnables"), (.SwcInternalBehavior, "events")]

theorem lists_named : ∀ p ∈ lists, ∃ f, fieldOf (tables.schema p.1) p.2 = some f ∧ f.shape = .many none ∧
    f.alts.all (fun t => match t with | .cls c => hasName c | _ => false) = true := by
  simp only [lists, List.mem_cons, List.not_mem_nil, or_false]
  rintro p (rfl | rfl | rfl | rfl | rfl | rfl) <;>
    exact ⟨_, rfl, rfl, by decide +kernel⟩

theorem member_named {c : Cls} {fs : List (String × Val Cls)} (h : WellFormed c (.obj c fs)) {a : String}
    (ha : (c, a) ∈ lists) {x : Val Cls} (hx : x ∈ members (.obj c fs) a) :
    Named x ∧ ∃ c', WellFormed c' x ∧ classOf x = some c' := by
  obtain ⟨f, hf, hs, hall⟩ := lists_named _ ha
  obtain ⟨⟨t, ht, hs'⟩, hp⟩ := member_wf h hf hs hx
  have := List.all_eq_true.1 hall t ht
  split at this
  · next c' =>
    obtain ⟨gs, rfl, hw⟩ := of_cls hs' hp
    exact ⟨named_wf hw this, c', hw, rfl⟩
  · cases this

theorem called_iff {x : Val Cls} (h : Named x) (n : List Char) :
    Called n x ↔ (shortName x).toList = n := by
  unfold Called
  rw [h.name, Option.some.injEq]
  constructor
  · intro e; rw [e]; simp
  · intro e; rw [← e]; simp

/-! ### Ports -/

variable {ps : List Pkg} {K : Known} {way : List String} {v : Val Cls}

/-- The component is an application component of the packages. -/
structure IsApp (ps : List Pkg) (way : List String) (v : Val Cls) : Prop where
  at' : ElementAt ps way v
  wf : WellFormedPkgs ps
  app : classOf v = some .ApplicationSoftwareComponentType

theorem app_wf (h : IsApp ps way v) : ∃ fs, v = .obj .ApplicationSoftwareComponentType fs ∧
    WellFormed .ApplicationSoftwareComponentType (.obj .ApplicationSoftwareComponentType fs) := by
  obtain ⟨c, fs, rfl, -, hw⟩ := elem_wf h.at' h.wf
  have := h.app
  simp only [classOf, Option.some.injEq] at this
  subst this
  exact ⟨fs, rfl, hw⟩

theorem port_named (h : IsApp ps way v) {x : Val Cls} (hx : x ∈ members v "ports") : Named x := by
  obtain ⟨fs, rfl, hw⟩ := app_wf h
  exact (member_named hw (by simp [lists]) hx).1

theorem kind_class (x : Val Cls) (k : Swc.PortKind) : portKind x = some k ↔
    classOf x = some (match k with
      | .p => Cls.ProvidePortPrototype
      | .r => .RequirePortPrototype
      | .pr => .PRPortPrototype) := by
  cases x with
  | obj c fs =>
    simp only [classOf, Option.some.injEq]
    unfold portKind
    split <;> cases k <;> simp_all
  | _ => simp [portKind, classOf]

theorem dest_kind {x : Val Cls} {k : Swc.PortKind} (h : portKind x = some k) : PortDest x (destOf k) := by
  unfold portKind at h
  split at h <;> cases h
  · exact .provide
  · exact .require
  · exact .both

theorem required_iff (h : IsApp ps way v) {n : List Char} {p : Swc.EvPort} :
    Required (compOf ps K way v) n p ↔ ∃ x, portOf ps K way x = some p ∧ RequiredPort v n x := by
  unfold Required RequiredPort
  rw [compOf, first_filterMap]
  refine exists_congr fun x => and_congr_right fun _ => first_congr fun y hy => ?_
  rw [called_iff (port_named h hy)]
  have h1 := kind_class y
  constructor
  · rintro ⟨q, hq, hk, hn⟩
    unfold portOf at hq
    cases hp : portKind y with
    | none => rw [hp] at hq; cases hq
    | some k =>
      rw [hp] at hq; cases hq
      refine ⟨?_, hn⟩
      cases k with
      | p => exact absurd rfl hk
      | r => exact .inl ((h1 .r).1 hp)
      | pr => exact .inr ((h1 .pr).1 hp)
  · rintro ⟨hc | hc, hn⟩
    · exact ⟨_, by rw [portOf, (h1 .r).2 hc]; rfl, by simp, hn⟩
    · exact ⟨_, by rw [portOf, (h1 .pr).2 hc]; rfl, by simp, hn⟩

theorem provided_iff (h : IsApp ps way v) {n : List Char} {p : Swc.EvPort} :
    Provided (compOf ps K way v) n p ↔ ∃ x, portOf ps K way x = some p ∧ ProvidedPort v n x := by
  unfold Provided ProvidedPort
  rw [compOf, first_filterMap]
  refine exists_congr fun x => and_congr_right fun _ => first_congr fun y hy => ?_
  rw [called_iff (port_named h hy)]
  have h1 := kind_class y
  constructor
  · rintro ⟨q, hq, hk, hn⟩
    unfold portOf at hq
    cases hp : portKind y with
    | none => rw [hp] at hq; cases hq
    | some k =>
      rw [hp] at hq; cases hq
      refine ⟨?_, hn⟩
      cases k with
      | r => exact absurd rfl hk
      | p => exact .inl ((h1 .p).1 hp)
      | pr => exact .inr ((h1 .pr).1 hp)
  · rintro ⟨hc | hc, hn⟩
    · exact ⟨_, by rw [portOf, (h1 .p).2 hc]; rfl, by simp, hn⟩
    · exact ⟨_, by rw [portOf, (h1 .pr).2 hc]; rfl, by simp, hn⟩

theorem ref_inj {a b : String} (h : absRef (way ++ [a]) = absRef (way ++ [b])) : a = b := by
  rw [ref_append, ref_append] at h
  have := congrArg String.toList h
  simp only [String.toList_append, List.append_assoc, List.append_cancel_left_eq] at this
  exact String.toList_inj.1 this

theorem ports_ref {p : Swc.EvPort} (h : p ∈ (members v "ports").filterMap (portOf ps K way)) :
    p.ref = absRef (way ++ [p.name]) := by
  obtain ⟨x, -, hx⟩ := List.mem_filterMap.1 h
  unfold portOf at hx
  cases hp : portKind x with
  | none => rw [hp] at hx; cases hx
  | some k => rw [hp] at hx; cases hx; rfl

theorem dest_required {n : List Char} {p : Swc.EvPort} (h : Required (compOf ps K way v) n p) :
    destFor (compOf ps K way v).ports .p p.ref = destOf p.kind := by
  have hf : (compOf ps K way v).ports.find? (fun q => q.kind ≠ .p && q.ref = p.ref) = some p := by
    rw [Verif.Swc.EventSpec.first_iff (P := fun q => q.kind ≠ .p ∧ q.ref = p.ref) (by simp)]
    refine (first_congr fun q hq => ?_).1 h
    obtain ⟨pre, post, hl, ⟨-, hn⟩, -⟩ := id h
    rw [ports_ref hq, ports_ref (first_mem h), ← hn]
    exact and_congr_right fun _ => ⟨fun e => by rw [String.toList_inj.1 e], fun e => by rw [ref_inj e]⟩
  rw [destFor, hf]

theorem dest_provided {n : List Char} {p : Swc.EvPort} (h : Provided (compOf ps K way v) n p) :
    destFor (compOf ps K way v).ports .r p.ref = destOf p.kind := by
  have hf : (compOf ps K way v).ports.find? (fun q => q.kind ≠ .r && q.ref = p.ref) = some p := by
    rw [Verif.Swc.EventSpec.first_iff (P := fun q => q.kind ≠ .r ∧ q.ref = p.ref) (by simp)]
    refine (first_congr fun q hq => ?_).1 h
    obtain ⟨pre, post, hl, ⟨-, hn⟩, -⟩ := id h
    rw [ports_ref hq, ports_ref (first_mem h), ← hn]
    exact and_congr_right fun _ => ⟨fun e => by rw [String.toList_inj.1 e], fun e => by rw [ref_inj e]⟩
  rw [destFor, hf]

/-! ### Interfaces -/

theorem locate_there (hw : WellFormedPkgs ps) {r : String} {way : List String} {t : Val Cls}
    (h : locate ps r = .ok (some (.element way t))) : ElementAt ps way t := by
  obtain ⟨names, h1, h2, -⟩ := locatePkgs_there [] ps _ _ hw
    (by simpa using not_mem_partL_fst '/' (stripLead '/' r.toList)) h
  simp only [List.nil_append] at h1
  subst h1
  exact h2

theorem refOf_some {x : Option (Val Cls)} {s : String} (h : refOf x = some s) :
    ∃ r, x = some (.ref r) ∧ r.value = s := by
  unfold refOf at h
  split at h
  · next r => cases h; exact ⟨r, rfl, rfl⟩
  · cases h

theorem iface_iff (hw : WellFormedPkgs ps) {x : Val Cls} {i : Swc.EvIface} (hi : i ≠ .other) :
    ifaceAt ps K (refOf (attr x "port_interface_ref")) = .ok i ↔
      ∃ c wayI t, Leads ps x "port_interface_ref" c wayI t ∧ ifaceAs ps K wayI t = i := by
  constructor
  · intro h
    unfold ifaceAt at h
    cases hr : refOf (attr x "port_interface_ref") with
    | none => rw [hr] at h; cases h
    | some s =>
      rw [hr] at h
      obtain ⟨r, h1, rfl⟩ := refOf_some hr
      cases hl : locate ps r.value with
      | error e => simp only [hl] at h; cases h
      | ok o =>
        simp only [hl] at h
        match o, hl, h with
        | some (.element wayI t), hl, h =>
          simp only [Except.ok.injEq] at h
          have hat := locate_there hw hl
          obtain ⟨c, fs, rfl, -⟩ := elem_wf hat hw
          exact ⟨c, wayI, _, ⟨r, by rw [field_attr]; exact h1, hl, hat, rfl⟩, h⟩
        | some (.pkg _ _), hl, h => simp only [Except.ok.injEq] at h; exact absurd h.symm hi
        | some (.part _ _ _), hl, h => simp only [Except.ok.injEq] at h; exact absurd h.symm hi
        | none, hl, h => cases h
  · rintro ⟨c, wayI, t, ⟨r, h1, h2, -, -⟩, rfl⟩
    rw [field_attr] at h1
    simp [ifaceAt, h1, refOf, h2]

theorem sr_iff (hw : WellFormedPkgs ps) {x : Val Cls} {l : List Swc.Elem} :
    ifaceAt ps K (refOf (attr x "port_interface_ref")) = .ok (.senderReceiver l) ↔
      ∃ wayI t, Leads ps x "port_interface_ref" .SenderReceiverInterface wayI t ∧
        (members t "data_elements").map (elemOf wayI) = l := by
  rw [iface_iff hw (by simp)]
  constructor
  · rintro ⟨c, wayI, t, hl, h⟩
    unfold ifaceAs at h
    split at h <;> simp at h
    obtain ⟨r, h1, h2, h3, h4⟩ := hl
    exact ⟨wayI, _, ⟨r, h1, h2, h3, rfl⟩, h⟩
  · rintro ⟨wayI, t, hl, rfl⟩
    refine ⟨_, wayI, t, hl, ?_⟩
    obtain ⟨r, h1, h2, h3, h4⟩ := hl
    cases t <;> simp [classOf] at h4
    subst h4
    rfl

theorem cs_iff (hw : WellFormedPkgs ps) {x : Val Cls} {l : List Swc.Elem} :
    ifaceAt ps K (refOf (attr x "port_interface_ref")) = .ok (.clientServer l) ↔
      ∃ wayI t, Leads ps x "port_interface_ref" .ClientServerInterface wayI t ∧
        (members t "operations").map (elemOf wayI) = l := by
  rw [iface_iff hw (by simp)]
  constructor
  · rintro ⟨c, wayI, t, hl, h⟩
    unfold ifaceAs at h
    split at h <;> simp at h
    obtain ⟨r, h1, h2, h3, h4⟩ := hl
    exact ⟨wayI, _, ⟨r, h1, h2, h3, rfl⟩, h⟩
  · rintro ⟨wayI, t, hl, rfl⟩
    refine ⟨_, wayI, t, hl, ?_⟩
    obtain ⟨r, h1, h2, h3, h4⟩ := hl
    cases t <;> simp [classOf] at h4
    subst h4
    rfl

theorem ms_iff (hw : WellFormedPkgs ps) {x : Val Cls} {g : Swc.ModeProto} :
    ifaceAt ps K (refOf (attr x "port_interface_ref")) = .ok (.modeSwitch (some g)) ↔
      ∃ wayI t m, Leads ps x "port_interface_ref" .ModeSwitchInterface wayI t ∧
        field t "mode_group" = some m ∧ groupOf ps K wayI m = g := by
  rw [iface_iff hw (by simp)]
  constructor
  · rintro ⟨c, wayI, t, hl, h⟩
    unfold ifaceAs at h
    split at h <;> simp at h
    obtain ⟨r, h1, h2, h3, h4⟩ := hl
    obtain ⟨m, h5, h6⟩ := h
    exact ⟨wayI, _, m, ⟨r, h1, h2, h3, rfl⟩, by rw [field_attr]; exact h5, h6⟩
  · rintro ⟨wayI, t, m, hl, hm, rfl⟩
    refine ⟨_, wayI, t, hl, ?_⟩
    obtain ⟨r, h1, h2, h3, h4⟩ := hl
    rw [field_attr] at hm
    cases t <;> simp [classOf] at h4
    subst h4
    simp [ifaceAs, hm]

theorem type_iff (hw : WellFormedPkgs ps) {g : Val Cls} {items : Swc.ModeItems} :
    modesAt ps (refOf (attr g "type_ref")) = .ok items ↔
      ∃ wayT t, Leads ps g "type_ref" .ModeDeclarationGroup wayT t ∧
        items = ⟨(members t "mode_declarations").map (elemOf wayT), (members t "mode_transitions").map shortName⟩ := by
  constructor
  · intro h
    unfold modesAt at h
    cases hr : refOf (attr g "type_ref") with
    | none => rw [hr] at h; cases h
    | some s =>
      rw [hr] at h
      obtain ⟨r, h1, rfl⟩ := refOf_some hr
      cases hl : locate ps r.value with
      | error e => simp only [hl] at h; cases h
      | ok o =>
        simp only [hl] at h
        match o, hl, h with
        | some (.element wayI t), hl, h =>
          simp only at h
          split at h
          · cases h
            exact ⟨wayI, _, ⟨r, by rw [field_attr]; exact h1, hl, locate_there hw hl, rfl⟩, rfl⟩
          · cases h
        | some (.pkg _ _), hl, h => cases h
        | some (.part _ _ _), hl, h => cases h
        | none, hl, h => cases h
  · rintro ⟨wayT, t, ⟨r, h1, h2, h3, h4⟩, rfl⟩
    rw [field_attr] at h1
    cases t <;> simp [classOf] at h4
    subst h4
    simp [modesAt, h1, refOf, h2]

theorem lead_named (hw : WellFormedPkgs ps) {x t : Val Cls} {a b : String} {c : Cls} {wayI : List String}
    (h : Leads ps x a c wayI t) (hc : (c, b) ∈ lists) : ∀ e ∈ members t b, Named e := by
  obtain ⟨r, -, -, h3, h4⟩ := h
  obtain ⟨c', fs, rfl, -, hwf⟩ := elem_wf h3 hw
  simp only [classOf, Option.some.injEq] at h4
  subst h4
  exact fun e he => (member_named hwf hc he).1

theorem group_named (hw : WellFormedPkgs ps) {x t g : Val Cls} {a : String} {wayI : List String}
    (h : Leads ps x a .ModeSwitchInterface wayI t) (hg : field t "mode_group" = some g) : Named g := by
  obtain ⟨r, -, -, h3, h4⟩ := h
  obtain ⟨c', fs, rfl, -, hwf⟩ := elem_wf h3 hw
  simp only [classOf, Option.some.injEq] at h4
  subst h4
  rw [field_attr] at hg
  obtain ⟨h1, h2⟩ := hwf
  simp only [hasS, Bool.and_eq_true] at h1
  obtain ⟨f, h5, h6⟩ := hasFields_get h1.2 hg
  have h7 : fieldOf (tables.schema .ModeSwitchInterface) "mode_group" =
      some (Schema.opt "mode_group" [.cls .ModeDeclarationGroupPrototype]) := rfl
  rw [h7] at h5
  cases h5
  have h8 : hasS tables g (.cls .ModeDeclarationGroupPrototype) = true := by
    simpa [hasField, Schema.opt] using h6
  obtain ⟨gs, rfl, hwg⟩ := of_cls h8 (plain_get (by simpa [plainVal] using h2) hg)
  exact named_wf hwg (by decide +kernel)

theorem picked_iff {l : List (Val Cls)} (h : ∀ e ∈ l, Named e) {w : List String} {n : List Char}
    {e : Swc.Elem} : Chosen (l.map (elemOf w)) n e ↔ ∃ x, Picked l n x ∧ elemOf w x = e := by
  unfold Chosen Picked
  rw [first_map]
  have key : ∀ x, First l (fun x => (elemOf w x).name.toList = n) x ↔ First l (Called n) x :=
    fun x => first_congr fun y hy => (called_iff (h y hy) n).symm
  simp only [key]
  constructor
  · rintro (⟨h1, h2⟩ | ⟨h1, x, h2, rfl⟩)
    · obtain ⟨x, l', rfl, h3, h4⟩ := List.map_eq_cons_iff.1 h2
      obtain rfl := List.map_eq_nil_iff.1 h4
      exact ⟨x, .inl ⟨h1, rfl⟩, h3⟩
    · exact ⟨x, .inr ⟨h1, h2⟩, rfl⟩
  · rintro ⟨x, ⟨h1, rfl⟩ | ⟨h1, h2⟩, rfl⟩
    · exact .inl ⟨h1, rfl⟩
    · exact .inr ⟨h1, x, h2, rfl⟩

theorem picked_mem {l : List (Val Cls)} {n : List Char} {x : Val Cls} (h : Picked l n x) : x ∈ l := by
  rcases h with ⟨-, rfl⟩ | ⟨-, h⟩
  · simp
  · exact first_mem h

end Verif.Codec.Event
