import Verif.Codec.AccessProof
import Verif.Props.CodecEvent
/-
C73: access points made in documents that are saved and loaded.
-/
set_option linter.unusedSimpArgs false
namespace Verif.Props.CodecAccess
open Verif.Py Verif.Ref Verif.Pkg.Spec Verif.Codec Verif.Codec.Spec Verif.Codec.Find Verif.Codec.FindSpec
open Verif.Codec.Connect (field_attr elem_wf member_wf of_cls)
open Verif.Codec.ConnectSpec Verif.Codec.EventSpec Verif.Codec.Access Verif.Codec.AccessSpec
open Verif.Codec.Older.Spec (areasNamedPkgs SameSide)
open Verif.Codec.Owner (shortName)
open Verif.Codec.TypeHeader (attr refOf locate)
open Verif.Codec.Event (Known hasName named_wf locate_there refOf_some group_named kind_class IsApp port_named)
open Verif.Swc (AccElem AccIface AccPort Point Extra PortKind Slot)
open Verif.Props.CodecConnect (element_norm)
open Verif.Props.SwcAccess (Fits elems C35_points_partial)

/-! ### What is made -/

theorem lists_named {c : Cls} {a : String} (h : (c, a) ∈ [(Cls.SenderReceiverInterface, "data_elements"),
    (.NvDataInterface, "data_elements"), (.ParameterInterface, "parameters"), (.ClientServerInterface, "operations")]) :
    ∃ f, fieldOf (tables.schema c) a = some f ∧ f.shape = .many none ∧
      f.alts.all (fun t => match t with | .cls c => hasName c | _ => false) = true := by
  simp only [List.mem_cons, List.not_mem_nil, or_false, Prod.mk.injEq] at h
  rcases h with ⟨rfl, rfl⟩ | ⟨rfl, rfl⟩ | ⟨rfl, rfl⟩ | ⟨rfl, rfl⟩ <;> exact ⟨_, rfl, rfl, by decide +kernel⟩

theorem part_named {ps : List Pkg} (hw : WellFormedPkgs ps) {x t : Val Cls} {c : Cls} {wayI : List String}
    (h : Leads ps x "port_interface_ref" c wayI t) {l : List (Val Cls)} (hl : Parts c t l) {e : Val Cls} (he : e ∈ l) :
    elemName e = some (shortName e) := by
  have hg := h
  obtain ⟨r, -, -, h3, h4⟩ := h
  obtain ⟨c', fs, rfl, -, hwf⟩ := elem_wf h3 hw
  cases (Option.some.inj h4 : c' = c)
  have key : ∀ a, (c, a) ∈ [(Cls.SenderReceiverInterface, "data_elements"), (.NvDataInterface, "data_elements"),
      (.ParameterInterface, "parameters"), (.ClientServerInterface, "operations")] →
      e ∈ members (.obj c fs) a → elemName e = some (shortName e) := by
    intro a ha hx
    obtain ⟨f, hf, hs, hall⟩ := lists_named ha
    obtain ⟨⟨t, ht, hs'⟩, hp⟩ := member_wf hwf hf hs hx
    have := List.all_eq_true.1 hall t ht
    split at this
    · obtain ⟨gs, rfl, hw'⟩ := of_cls hs' hp
      exact (named_wf hw' this).name
    · cases this
  cases hl with
  | data => exact key _ (by simp) he
  | nvData => exact key _ (by simp) he
  | parameters => exact key _ (by simp) he
  | operations => exact key _ (by simp) he
  | group h =>
    rw [List.mem_singleton] at he
    subst he
    exact (group_named hw hg h).name

theorem iface_leads {ps : List Pkg} (hw : WellFormedPkgs ps) {K : Known} {x : Val Cls} {i : AccIface} (hi : i ≠ .other)
    (h : ifaceAt ps K (refOf (attr x "port_interface_ref")) = .ok i) :
    ∃ c wayI t, Leads ps x "port_interface_ref" c wayI t ∧ ifaceAs K wayI t = i := by
  unfold ifaceAt at h
  cases hr : refOf (attr x "port_interface_ref") with
  | none => rw [hr] at h; cases h
  | some s =>
    rw [hr] at h
    obtain ⟨r, h1, rfl⟩ := refOf_some hr
    cases hl : locate ps r.value with
    | error e => simp only [hl] at h; cases h
    | ok o =>
      simp only [hl] at h
      match o, hl, h with
      | some (.element wayI t), hl, h =>
        simp only [Except.ok.injEq] at h
        have hat := locate_there hw hl
        obtain ⟨c, fs, rfl, -⟩ := elem_wf hat hw
        exact ⟨c, wayI, _, ⟨r, by rw [field_attr]; exact h1, hl, hat, rfl⟩, h⟩
      | some (.pkg _ _), hl, h => simp only [Except.ok.injEq] at h; exact absurd h.symm hi
      | some (.part _ _ _), hl, h => simp only [Except.ok.injEq] at h; exact absurd h.symm hi
      | none, hl, h => cases h

/-- The class of a kind of port. -/
def portCls : PortKind → Cls
  | .p => .ProvidePortPrototype
  | .r => .RequirePortPrototype
  | .pr => .PRPortPrototype

/-- The parts of the interface, and the kinds of points. -/
theorem iface_parts {K : Known} {wayI : List String} {t : Val Cls} {c : Cls} (hc : classOf t = some c) {k : PortKind}
    {slot : Slot} (hf : Fits k (ifaceAs K wayI t) slot) {en : List Char} {e : AccElem}
    (hm : SwcAccess.Means (elems (ifaceAs K wayI t)) en e) :
    ∃ l, Parts c t l ∧ Suits (portCls k) c slot ∧
      ∃ f : Val Cls → AccElem, elems (ifaceAs K wayI t) = l.map f ∧ (∀ y, (f y).name = shortName y) ∧
        ∀ y, (f y).ref = some (absRef (wayI ++ [shortName y])) ∨
          ((f y).ref = none ∧ c = .ModeSwitchInterface ∧ K.group wayI = false) := by
  cases t with
  | obj c' fs =>
    cases (Option.some.inj hc : c' = c)
    unfold ifaceAs at hf hm ⊢
    split at hf
    · next h => cases h; exact ⟨_, .data, by cases hf <;> constructor <;> exact .inl rfl, partOf wayI, rfl, fun _ => rfl, fun _ => .inl rfl⟩
    · next h => cases h; exact ⟨_, .nvData, by cases hf <;> constructor <;> exact .inr rfl, partOf wayI, rfl, fun _ => rfl, fun _ => .inl rfl⟩
    · next h =>
      cases h
      simp only at hm ⊢
      cases hg : attr (.obj .ModeSwitchInterface fs) "mode_group" with
      | none =>
        rw [hg] at hm
        simp [elems, SwcAccess.Means] at hm
      | some g =>
        refine ⟨[g], .group (by rw [field_attr]; exact hg), ?_, groupOf K wayI, rfl, fun _ => rfl, fun y => ?_⟩
        · cases hf with
          | access _ _ h => exact .access (by cases k <;> simp_all [portCls])
          | switch => exact .switch
        · unfold groupOf
          cases hK : K.group wayI with
          | true => exact .inl (by simp)
          | false => exact .inr (by simp)
    · next h => cases h; exact ⟨_, .parameters, by cases hf; constructor, partOf wayI, rfl, fun _ => rfl, fun _ => .inl rfl⟩
    · next h =>
      cases h
      refine ⟨_, .operations, ?_, partOf wayI, rfl, fun _ => rfl, fun _ => .inl rfl⟩
      cases hf with
      | async _ _ h => exact .async (by cases k <;> simp_all [portCls])
      | sync _ _ h => exact .sync (by cases k <;> simp_all [portCls])
    · cases hf
  | _ => cases hc

/-- C73: every access point made for a runnable of an application component of a document is what one of the texts
asks for: it refers to the port the text names and to the part it means of the interface to which the port refers, and
its kind exists for the port and the interface. -/
theorem C73_points {ps : List Pkg} (hw : WellFormedPkgs ps) (K : Known) {way : List String} {v : Val Cls}
    (hat : ElementAt ps way v) (hc : classOf v = some .ApplicationSoftwareComponentType)
    (l : List (String × Extra)) :
    ∀ pt ∈ (createAccess ps K way v l).1, ∃ text x, (text, x) ∈ l ∧ Asked ps K way v text pt := by
  intro pt hpt
  unfold createAccess at hpt
  split at hpt
  · cases hs : K.settings with
    | none => rw [hs] at hpt; cases hpt
    | some s =>
      rw [hs] at hpt
      simp only at hpt
      obtain ⟨new, h1, h2⟩ := C35_points_partial s (portsOf ps K way v) [] l
      rw [h1, List.nil_append] at hpt
      obtain ⟨text, ex, hm, w, pn, en, p, i, e, h3, h4, h5, h6, h7, h8, h9, h10⟩ := h2 pt hpt
      refine ⟨text, ex, hm, ?_⟩
      obtain ⟨x, hx, hp⟩ := List.mem_filterMap.1 h4
      unfold portOf at hp
      cases hk : Connect.portKind x with
      | none => rw [hk] at hp; cases hp
      | some k =>
        rw [hk] at hp
        cases hp
        simp only at h5 h6 h8 h9
        have hi : i ≠ .other := by rintro rfl; cases h8
        obtain ⟨c, wayI, t, hl, rfl⟩ := iface_leads hw hi h6
        obtain ⟨ls, hparts, hsuits, f, hf, hfn, hfr⟩ := iface_parts hl.choose_spec.2.2.2 h8 h7
        have hxn := (port_named ⟨hat, hw, hc⟩ hx).name
        have hpn : elemName x = some (String.ofList pn) := by rw [hxn, ← h5, String.ofList_toList]
        have hcl : classOf x = some (portCls k) := by
          have := (kind_class x k).1 hk
          rw [this]; cases k <;> rfl
        rw [hf] at h7
        have key : ∃ y, Means ls en y ∧ y ∈ ls ∧ f y = e := by
          rcases h7 with ⟨rfl, h7⟩ | ⟨hne, h7, h7n⟩
          · obtain ⟨y, rfl, hy⟩ := List.map_eq_singleton_iff.1 h7
            exact ⟨y, .inl ⟨rfl, rfl⟩, by simp, hy⟩
          · obtain ⟨y, hy, rfl⟩ := List.mem_map.1 h7
            refine ⟨y, .inr ⟨hne, hy, ?_⟩, hy, rfl⟩
            rw [Called, part_named hw hl hparts hy, ← h7n, hfn, String.ofList_toList]
        obtain ⟨y, hy, hyl, rfl⟩ := key
        refine .mk h3 hx hpn hcl hl hparts hy hsuits ?_ (part_named hw hl hparts hyl) ?_
        · rw [h9, ← h5, String.ofList_toList]
        · rw [h10]; exact hfr y
  · cases hpt

theorem documented_data {cp c : Cls} {w : Option SwcAccess.Word} {slot : Slot} {key : String}
    (hd : AccessSpec.Documented cp c w slot key) {k : PortKind} (hk : portCls k = cp) (hc : DataInterface c)
    (l : List AccElem) : SwcAccess.Documented k (.data l) w slot key := by
  cases hd with
  | argument _ h => cases k <;> first | exact .argument _ _ (by simpa using h) | cases hk
  | value _ => cases k <;> first | exact .value _ | cases hk
  | read _ => cases k <;> first | exact .read _ | cases hk
  | write _ => cases k <;> first | exact .write _ | cases hk
  | send _ h => cases k <;> first | exact .send _ _ (by simpa using h) | cases hk
  | async => rcases hc with h | h <;> cases h
  | sync _ => rcases hc with h | h <;> cases h
  | access _ => rcases hc with h | h <;> cases h
  | switch => rcases hc with h | h <;> cases h

theorem documented_params {cp : Cls} {w : Option SwcAccess.Word} {slot : Slot} {key : String} :
    ¬ AccessSpec.Documented cp .ParameterInterface w slot key := by
  intro hd
  cases hd with
  | argument h _ => rcases h with h | h <;> cases h
  | value h => rcases h with h | h <;> cases h
  | read h => rcases h with h | h <;> cases h
  | write h => rcases h with h | h <;> cases h
  | send h _ => rcases h with h | h <;> cases h

theorem documented_ops {cp : Cls} {w : Option SwcAccess.Word} {slot : Slot} {key : String}
    (hd : AccessSpec.Documented cp .ClientServerInterface w slot key) {k : PortKind} (hk : portCls k = cp)
    (l : List AccElem) : SwcAccess.Documented k (.ops l) w slot key := by
  cases hd with
  | argument h _ => rcases h with h | h <;> cases h
  | value h => rcases h with h | h <;> cases h
  | read h => rcases h with h | h <;> cases h
  | write h => rcases h with h | h <;> cases h
  | send h _ => rcases h with h | h <;> cases h
  | async => cases k <;> first | exact .async _ _ (by decide) | cases hk
  | sync h => cases k <;> first | exact .sync _ _ _ (by decide) (by simpa using h) | cases hk

theorem documented_mode {cp : Cls} {w : Option SwcAccess.Word} {slot : Slot} {key : String}
    (hd : AccessSpec.Documented cp .ModeSwitchInterface w slot key) {k : PortKind} (hk : portCls k = cp)
    (g : Option AccElem) : SwcAccess.Documented k (.mode g) w slot key := by
  cases hd with
  | argument h _ => rcases h with h | h <;> cases h
  | value h => rcases h with h | h <;> cases h
  | read h => rcases h with h | h <;> cases h
  | write h => rcases h with h | h <;> cases h
  | send h _ => rcases h with h | h <;> cases h
  | access h => cases k <;> first | exact .access _ _ (by decide) | (rcases h with rfl | rfl <;> cases hk)
  | switch => cases k <;> first | exact .switch _ | cases hk

theorem ports_nodup {ps : List Pkg} (hw : WellFormedPkgs ps) (K : Known) {way : List String} {v : Val Cls}
    (hat : ElementAt ps way v) (hc : classOf v = some .ApplicationSoftwareComponentType)
    (hports : ((members v "ports").map elemName).Nodup) : ((portsOf ps K way v).map AccPort.name).Nodup := by
  have e1 : ∀ y ∈ members v "ports", elemName y = some (shortName y) :=
    fun y hy => (port_named ⟨hat, hw, hc⟩ hy).name
  unfold portsOf
  generalize members v "ports" = ms at hports e1
  induction ms with
  | nil => exact List.nodup_nil
  | cons y ys ih =>
    rw [List.map_cons, List.nodup_cons] at hports
    have ih' := ih hports.2 fun z hz => e1 z (by simp [hz])
    cases hy : Connect.portKind y with
    | none => rw [List.filterMap_cons_none (by rw [portOf, hy]; rfl)]; exact ih'
    | some k =>
      rw [List.filterMap_cons_some (by rw [portOf, hy]; rfl), List.map_cons, List.nodup_cons]
      refine ⟨fun hmem => hports.1 ?_, ih'⟩
      obtain ⟨q, hq, hq2⟩ := List.mem_map.1 hmem
      obtain ⟨z, hz, hzq⟩ := List.mem_filterMap.1 hq
      unfold portOf at hzq
      cases hzk : Connect.portKind z with
      | none => rw [hzk] at hzq; cases hzq
      | some k' =>
        rw [hzk] at hzq
        cases hzq
        refine List.mem_map.2 ⟨z, hz, ?_⟩
        rw [e1 z (by simp [hz]), e1 y (by simp)]
        exact congrArg some hq2

theorem port_kind {ps : List Pkg} {way : List String} {v : Val Cls} (h : IsApp ps way v) {x : Val Cls}
    (hx : x ∈ members v "ports") : ∃ k, Connect.portKind x = some k := by
  obtain ⟨fs, rfl, hw⟩ := Event.app_wf h
  obtain ⟨p, hp⟩ := Connect.port_there (by simp) hw hx
  have := hp.port
  unfold Connect.portOf at this
  cases hk : Connect.portKind x with
  | none => simp [hk] at this
  | some k => exact ⟨k, rfl⟩

/-- The port of a name is found. -/
theorem port_found {ps : List Pkg} (hw : WellFormedPkgs ps) (K : Known) {way : List String} {v : Val Cls}
    (hat : ElementAt ps way v) (hc : classOf v = some .ApplicationSoftwareComponentType)
    (hports : ((members v "ports").map elemName).Nodup) {pn : List Char} {x : Val Cls} (hx : x ∈ members v "ports")
    (hxn : Called pn x) {k : PortKind} (hk : Connect.portKind x = some k) {c : Cls} {wayI : List String} {t : Val Cls}
    (hl : Leads ps x "port_interface_ref" c wayI t) :
    (portsOf ps K way v).find? (fun q => q.name.toList = pn) =
      some ⟨String.ofList pn, k, absRef (way ++ [String.ofList pn]), .ok (ifaceAs K wayI t)⟩ := by
  have hx' := (port_named ⟨hat, hw, hc⟩ hx).name
  have hsn : shortName x = String.ofList pn := by
    rw [Called, hx'] at hxn
    exact Option.some.inj hxn
  have hi : ifaceAt ps K (refOf (attr x "port_interface_ref")) = .ok (ifaceAs K wayI t) := by
    obtain ⟨r, h1, h2, -, -⟩ := hl
    rw [field_attr] at h1
    simp [ifaceAt, h1, refOf, h2]
  have hmem : (⟨String.ofList pn, k, absRef (way ++ [String.ofList pn]), .ok (ifaceAs K wayI t)⟩ : AccPort) ∈
      portsOf ps K way v := List.mem_filterMap.2 ⟨x, hx, by rw [portOf, hk, ← hi, ← hsn]; rfl⟩
  have hnodup := ports_nodup hw K hat hc hports
  generalize portsOf ps K way v = ports at hmem hnodup
  induction ports with
  | nil => cases hmem
  | cons a l ih =>
    rw [List.map_cons, List.nodup_cons] at hnodup
    rcases List.mem_cons.1 hmem with h | h
    · rw [← h]
      simp [List.find?]
    · have hne : ¬ a.name.toList = pn := by
        intro e
        refine hnodup.1 (List.mem_map.2 ⟨_, h, ?_⟩)
        rw [← e, String.ofList_toList]
      simp only [List.find?, hne, decide_false]
      exact ih h hnodup.2

/-- C73: conversely, a text as documented makes exactly the point it asks for, if the ports of the component and the
parts of the interface have different names, and the mode group, if there is one, knows its interface. -/
theorem C73_documented {ps : List Pkg} (hw : WellFormedPkgs ps) (K : Known) (hb : K.behavior = true) {s : Settings}
    (hs : K.settings = some s) {way : List String} {v : Val Cls}
    (hat : ElementAt ps way v) (hc : classOf v = some .ApplicationSoftwareComponentType)
    (hports : ((members v "ports").map elemName).Nodup) {text : String} {w : Option SwcAccess.Word}
    {pn en : List Char} (ht : SwcAccess.Spells text.toList w pn en) {x : Val Cls} (hx : x ∈ members v "ports")
    (hxn : Called pn x) {cp c : Cls} (hcp : classOf x = some cp) {wayI : List String} {t : Val Cls}
    (hl : Leads ps x "port_interface_ref" c wayI t) {l : List (Val Cls)} (hparts : Parts c t l)
    (hnames : (l.map elemName).Nodup) {e : Val Cls} (he : Means l en e) {n : String} (hn : elemName e = some n)
    {slot : Slot} {key pre : String} (hd : AccessSpec.Documented cp c w slot key)
    (hk : s.getValue key = .ok (some pre)) (hg : c = .ModeSwitchInterface → K.group wayI = true) :
    createAccess ps K way v [(text, {})] =
      ([⟨slot, some (pre ++ "_" ++ String.ofList pn ++ "_" ++ n), absRef (way ++ [String.ofList pn]),
        some (absRef (wayI ++ [n]))⟩], .ok ()) := by
  have hx' := (port_named ⟨hat, hw, hc⟩ hx).name
  have hsn : shortName x = String.ofList pn := by
    rw [Called, hx'] at hxn
    exact Option.some.inj hxn
  have hle : e ∈ l := by
    rcases he with ⟨-, rfl⟩ | ⟨-, h, -⟩
    · simp
    · exact h
  have hen : shortName e = n := by
    rw [part_named hw hl hparts hle] at hn
    exact Option.some.inj hn
  obtain ⟨k, hk1, hk2⟩ : ∃ k, Connect.portKind x = some k ∧ portCls k = cp := by
    cases hd with
    | argument _ _ => exact ⟨.r, (kind_class x .r).2 hcp, rfl⟩
    | value _ => exact ⟨.r, (kind_class x .r).2 hcp, rfl⟩
    | read _ => exact ⟨.r, (kind_class x .r).2 hcp, rfl⟩
    | write _ => exact ⟨.p, (kind_class x .p).2 hcp, rfl⟩
    | send _ _ => exact ⟨.p, (kind_class x .p).2 hcp, rfl⟩
    | async => exact ⟨.r, (kind_class x .r).2 hcp, rfl⟩
    | sync _ => exact ⟨.r, (kind_class x .r).2 hcp, rfl⟩
    | access h =>
      rcases h with rfl | rfl
      · exact ⟨.r, (kind_class x .r).2 hcp, rfl⟩
      · exact ⟨.p, (kind_class x .p).2 hcp, rfl⟩
    | switch => exact ⟨.p, (kind_class x .p).2 hcp, rfl⟩
  have hi : ifaceAt ps K (refOf (attr x "port_interface_ref")) = .ok (ifaceAs K wayI t) := by
    obtain ⟨r, h1, h2, -, -⟩ := hl
    rw [field_attr] at h1
    simp [ifaceAt, h1, refOf, h2]
  have hnodup := ports_nodup hw K hat hc hports
  have hmem : (⟨shortName x, k, absRef (way ++ [shortName x]), .ok (ifaceAs K wayI t)⟩ : AccPort) ∈
      portsOf ps K way v := List.mem_filterMap.2 ⟨x, hx, by rw [portOf, hk1, ← hi]; rfl⟩
  obtain ⟨f, hf, hfn, hfr, hdoc⟩ : ∃ f : Val Cls → AccElem, elems (ifaceAs K wayI t) = l.map f ∧
      (∀ y, (f y).name = shortName y) ∧ (∀ y, (f y).ref = some (absRef (wayI ++ [shortName y]))) ∧
      SwcAccess.Documented k (ifaceAs K wayI t) w slot key := by
    have h4 := hl.choose_spec.2.2.2
    cases t with
    | obj c' fs =>
      cases (Option.some.inj h4 : c' = c)
      cases hparts with
      | data => exact ⟨partOf wayI, rfl, fun _ => rfl, fun _ => rfl, documented_data hd hk2 (.inl rfl) _⟩
      | nvData => exact ⟨partOf wayI, rfl, fun _ => rfl, fun _ => rfl, documented_data hd hk2 (.inr rfl) _⟩
      | parameters => exact absurd hd documented_params
      | operations => exact ⟨partOf wayI, rfl, fun _ => rfl, fun _ => rfl, documented_ops hd hk2 _⟩
      | group h =>
        refine ⟨groupOf K wayI, ?_, fun _ => rfl, fun _ => ?_, documented_mode hd hk2 _⟩
        · rw [field_attr] at h
          simp [elems, ifaceAs, h]
        · simp [groupOf, hg rfl]
    | _ => cases h4
  have hmeans : SwcAccess.Means (elems (ifaceAs K wayI t)) en (f e) := by
    rw [hf]
    rcases he with ⟨h1, rfl⟩ | ⟨h1, h2, h3⟩
    · exact .inl ⟨h1, rfl⟩
    · refine .inr ⟨h1, List.mem_map_of_mem h2, ?_⟩
      rw [Called, hn, Option.some.injEq] at h3
      rw [hfn, hen, h3, String.toList_ofList]
  have hnd : ((elems (ifaceAs K wayI t)).map AccElem.name).Nodup := by
    rw [hf, List.map_map]
    have e1 : l.map elemName = (l.map (AccElem.name ∘ f)).map some := by
      rw [List.map_map]
      exact List.map_congr_left fun z hz => by
        rw [part_named hw hl hparts hz]; simp only [Function.comp_apply, hfn]
    rw [e1] at hnames
    exact (List.pairwise_map.1 hnames).imp fun h e => h (congrArg some e)
  have := SwcAccess.C35_documented s (portsOf ps K way v) [] text ht hnodup hmem
    (by simp only [hsn, String.toList_ofList]) rfl hdoc hnd hmeans hk
  unfold createAccess
  rw [if_pos hb, hs]
  simp only [this, List.nil_append, hfn, hfr, hen, hsn]

/-- C73: a text that names a parameter makes the point for it, whatever the prefix and the class of the port. -/
theorem C73_parameter {ps : List Pkg} (hw : WellFormedPkgs ps) (K : Known) (hb : K.behavior = true) {s : Settings}
    (hs : K.settings = some s) {way : List String} {v : Val Cls}
    (hat : ElementAt ps way v) (hc : classOf v = some .ApplicationSoftwareComponentType)
    (hports : ((members v "ports").map elemName).Nodup) {text : String} {w : Option SwcAccess.Word}
    {pn en : List Char} (ht : SwcAccess.Spells text.toList w pn en) {x : Val Cls} (hx : x ∈ members v "ports")
    (hxn : Called pn x) {wayI : List String} {t : Val Cls}
    (hl : Leads ps x "port_interface_ref" .ParameterInterface wayI t)
    (hnames : ((members t "parameters").map elemName).Nodup) {e : Val Cls} (he : e ∈ members t "parameters")
    (hen : Called en e) (hne : en ≠ []) {pre : String} (hk : s.getValue "parameter_access_prefix" = .ok (some pre)) :
    createAccess ps K way v [(text, {})] =
      ([⟨.parameter, some (pre ++ "_" ++ String.ofList pn ++ "_" ++ String.ofList en),
        absRef (way ++ [String.ofList pn]), some (absRef (wayI ++ [String.ofList en]))⟩], .ok ()) := by
  obtain ⟨k, hk1⟩ := port_kind ⟨hat, hw, hc⟩ hx
  have hfind := port_found hw K hat hc hports hx hxn hk1 hl
  have hp : Parts .ParameterInterface t (members t "parameters") := .parameters
  have hsn : shortName e = String.ofList en := by
    rw [Called, part_named hw hl hp he] at hen
    exact Option.some.inj hen
  have hi : ifaceAs K wayI t = .params ((members t "parameters").map (partOf wayI)) := by
    have h4 := hl.choose_spec.2.2.2
    cases t with
    | obj c' fs => cases (Option.some.inj h4 : c' = _); rfl
    | _ => cases h4
  have hnd : (((members t "parameters").map (partOf wayI)).map AccElem.name).Nodup := by
    have e1 : (members t "parameters").map elemName =
        (((members t "parameters").map (partOf wayI)).map AccElem.name).map some := by
      rw [List.map_map, List.map_map]
      exact List.map_congr_left fun z hz => by rw [part_named hw hl hp hz]; rfl
    rw [e1] at hnames
    exact (List.pairwise_map.1 hnames).imp fun h e => h (congrArg some e)
  have := SwcAccess.C35_parameter s (portsOf ps K way v) [] text ht hfind (by rw [hi]) hnd hne
    (e := partOf wayI e) (.inr ⟨hne, List.mem_map_of_mem he, by rw [partOf, hsn, String.toList_ofList]⟩) hk
  unfold createAccess
  rw [if_pos hb, hs]
  simp only [this, List.nil_append, partOf, hsn]

/-- C73: without a prefix, a text for a mode switch interface makes a point without name for its mode group. -/
theorem C73_mode_default {ps : List Pkg} (hw : WellFormedPkgs ps) (K : Known) (hb : K.behavior = true) {s : Settings}
    (hs : K.settings = some s) {way : List String} {v : Val Cls}
    (hat : ElementAt ps way v) (hc : classOf v = some .ApplicationSoftwareComponentType)
    (hports : ((members v "ports").map elemName).Nodup) {text : String}
    {pn en : List Char} (ht : SwcAccess.Spells text.toList none pn en) {x : Val Cls} (hx : x ∈ members v "ports")
    (hxn : Called pn x) (hpr : classOf x ≠ some .PRPortPrototype) {wayI : List String} {t g : Val Cls}
    (hl : Leads ps x "port_interface_ref" .ModeSwitchInterface wayI t) (hg : field t "mode_group" = some g)
    (he : Means [g] en g) (hkn : K.group wayI = true) {n : String} (hn : elemName g = some n) :
    createAccess ps K way v [(text, {})] =
      ([⟨.modeAccess, none, absRef (way ++ [String.ofList pn]), some (absRef (wayI ++ [n]))⟩], .ok ()) := by
  obtain ⟨k, hk1⟩ := port_kind ⟨hat, hw, hc⟩ hx
  have hfind := port_found hw K hat hc hports hx hxn hk1 hl
  have hsn : shortName g = n := by
    rw [(group_named hw hl hg).name] at hn
    exact Option.some.inj hn
  have hi : ifaceAs K wayI t = .mode (some (groupOf K wayI g)) := by
    have h4 := hl.choose_spec.2.2.2
    cases t with
    | obj c' fs =>
      cases (Option.some.inj h4 : c' = _)
      rw [field_attr] at hg
      simp [ifaceAs, hg]
    | _ => cases h4
  have hkp : k ≠ .pr := by
    rintro rfl
    exact hpr ((kind_class x .pr).1 hk1)
  have hmeans : SwcAccess.Means [groupOf K wayI g] en (groupOf K wayI g) := by
    rcases he with ⟨h1, -⟩ | ⟨h1, -, h3⟩
    · exact .inl ⟨h1, rfl⟩
    · refine .inr ⟨h1, by simp, ?_⟩
      rw [Called, hn, Option.some.injEq] at h3
      rw [groupOf, hsn, h3, String.toList_ofList]
  have := SwcAccess.C35_mode_default s (portsOf ps K way v) [] text ht hfind (by rw [hi]) hkp hmeans
  unfold createAccess
  rw [if_pos hb, hs]
  simp only [this, List.nil_append, groupOf, hkn, if_true, hsn]

theorem elems_parts {K : Known} {wayI : List String} {t : Val Cls} {c : Cls} (hc : classOf t = some c)
    (hne : elems (ifaceAs K wayI t) ≠ []) :
    ∃ l, Parts c t l ∧ ∃ f : Val Cls → AccElem, elems (ifaceAs K wayI t) = l.map f ∧ ∀ y, (f y).name = shortName y := by
  cases t with
  | obj c' fs =>
    cases (Option.some.inj hc : c' = c)
    unfold ifaceAs at hne ⊢
    split at hne
    · next h => cases h; exact ⟨_, .data, partOf wayI, rfl, fun _ => rfl⟩
    · next h => cases h; exact ⟨_, .nvData, partOf wayI, rfl, fun _ => rfl⟩
    · next h =>
      cases h
      cases hg : attr (.obj .ModeSwitchInterface fs) "mode_group" with
      | none => rw [hg] at hne; exact absurd rfl hne
      | some g =>
        rw [← field_attr] at hg
        refine ⟨_, .group hg, groupOf K wayI, ?_, fun _ => rfl⟩
        rw [field_attr] at hg
        simp [elems, hg]
    · next h => cases h; exact ⟨_, .parameters, partOf wayI, rfl, fun _ => rfl⟩
    · next h => cases h; exact ⟨_, .operations, partOf wayI, rfl, fun _ => rfl⟩
    · exact absurd rfl hne
  | _ => cases hc

/-- C73: a text that is not of the documented form, or names no port of the component, raises ValueError, and one that
means no part of the interface to which its port refers raises an exception; no point is made. -/
theorem C73_rejected {ps : List Pkg} (hw : WellFormedPkgs ps) (K : Known) (hb : K.behavior = true) {s : Settings}
    (hs : K.settings = some s) {way : List String} {v : Val Cls}
    (hat : ElementAt ps way v) (hc : classOf v = some .ApplicationSoftwareComponentType) (text : String) (ex : Extra) :
    ((¬ ∃ w pn en, SwcAccess.Spells text.toList w pn en) →
      createAccess ps K way v [(text, ex)] = ([], .error .valueError)) ∧
    (∀ w pn en, SwcAccess.Spells text.toList w pn en → (∀ x ∈ members v "ports", ¬ Called pn x) →
      createAccess ps K way v [(text, ex)] = ([], .error .valueError)) ∧
    (∀ w pn en, SwcAccess.Spells text.toList w pn en →
      (∀ x ∈ members v "ports", Called pn x → ∀ c wayI t l, Leads ps x "port_interface_ref" c wayI t → Parts c t l →
        ∀ e, ¬ Means l en e) →
      ∃ err, createAccess ps K way v [(text, ex)] = ([], .error err)) := by
  have hcr : createAccess ps K way v [(text, ex)] = Swc.createAccess s (portsOf ps K way v) [] [(text, ex)] := by
    unfold createAccess
    rw [if_pos hb, hs]
  rw [hcr]
  obtain ⟨h1, h2, h3⟩ := SwcAccess.C35_malformed_rejected s (portsOf ps K way v) [] text ex
  have back : ∀ p ∈ portsOf ps K way v, ∃ x ∈ members v "ports", elemName x = some p.name ∧
      p.iface = ifaceAt ps K (refOf (attr x "port_interface_ref")) := by
    intro p hp
    obtain ⟨x, hx, hxp⟩ := List.mem_filterMap.1 hp
    unfold portOf at hxp
    cases hk : Connect.portKind x with
    | none => rw [hk] at hxp; cases hxp
    | some k =>
      rw [hk] at hxp
      cases hxp
      exact ⟨x, hx, (port_named ⟨hat, hw, hc⟩ hx).name, rfl⟩
  refine ⟨h1, fun w pn en hsp hno => h2 w pn en hsp fun p hp hpn => ?_, fun w pn en hsp hno =>
    h3 w pn en hsp fun p hp hpn i hi e hm => ?_⟩
  · obtain ⟨x, hx, hxn, -⟩ := back p hp
    exact hno x hx (by rw [Called, hxn, ← hpn, String.ofList_toList])
  · obtain ⟨x, hx, hxn, hif⟩ := back p hp
    have hne : elems i ≠ [] := by
      intro h
      rw [h] at hm
      rcases hm with ⟨-, h⟩ | ⟨-, h, -⟩ <;> cases h
    have ho : i ≠ .other := by rintro rfl; exact hne rfl
    rw [hif] at hi
    obtain ⟨c, wayI, t, hl, rfl⟩ := iface_leads hw ho hi
    obtain ⟨l, hl2, f, hf, hfn⟩ := elems_parts hl.choose_spec.2.2.2 hne
    rw [hf] at hm
    have hcall : Called pn x := by rw [Called, hxn, ← hpn, String.ofList_toList]
    rcases hm with ⟨h4, h5⟩ | ⟨h4, h5, h6⟩
    · obtain ⟨y, rfl, -⟩ := List.map_eq_singleton_iff.1 h5
      exact hno x hx hcall c wayI t _ hl hl2 y (.inl ⟨h4, rfl⟩)
    · obtain ⟨y, hy, rfl⟩ := List.mem_map.1 h5
      refine hno x hx hcall c wayI t _ hl hl2 y (.inr ⟨h4, hy, ?_⟩)
      rw [Called, part_named hw hl hl2 hy, ← h6, hfn, String.ofList_toList]

theorem create_acc (s : Settings) (ports : List AccPort) (l : List (String × Extra)) (pts : List Point) :
    Swc.createAccess s ports pts l =
      (pts ++ (Swc.createAccess s ports [] l).1, (Swc.createAccess s ports [] l).2) := by
  induction l generalizing pts with
  | nil => simp [Swc.createAccess]
  | cons a l ih =>
    obtain ⟨t, x⟩ := a
    simp only [Swc.createAccess]
    cases Swc.oneAccess s ports t x with
    | error e => simp
    | ok r =>
      cases r with
      | none => exact ih pts
      | some pt =>
        simp only [List.nil_append]
        rw [ih (pts ++ [pt]), ih [pt], List.append_assoc]

/-- C73: several texts make what they make one by one, in their order, up to the first that raises an exception; that
is the outcome, and the points made before are kept. -/
theorem C73_one_by_one (ps : List Pkg) (K : Known) (hb : K.behavior = true) (hs : K.settings.isSome = true)
    (way : List String) (v : Val Cls) (a : String × Extra) (l : List (String × Extra)) :
    createAccess ps K way v [] = ([], .ok ()) ∧
    (∀ e, (createAccess ps K way v [a]).2 = .error e → createAccess ps K way v (a :: l) = ([], .error e)) ∧
    ((createAccess ps K way v [a]).2 = .ok () →
      createAccess ps K way v (a :: l) =
        ((createAccess ps K way v [a]).1 ++ (createAccess ps K way v l).1, (createAccess ps K way v l).2)) ∧
    (createAccess ps K way v [a]).1.length ≤ 1 := by
  obtain ⟨s, hs⟩ := Option.isSome_iff_exists.1 hs
  have hcr : ∀ l, createAccess ps K way v l = Swc.createAccess s (portsOf ps K way v) [] l := by
    intro l
    unfold createAccess
    rw [if_pos hb, hs]
  obtain ⟨t, x⟩ := a
  simp only [hcr, Swc.createAccess]
  cases Swc.oneAccess s (portsOf ps K way v) t x with
  | error e => simp
  | ok r =>
    cases r with
    | none => simp
    | some pt =>
      simp only [List.nil_append]
      rw [create_acc]
      simp

/-- C73: in the document read, `create_port_access` has the outcome it has in the document written (nothing, or the
same exception) and makes the same points, if the behaviour knows its component in both or in neither and the settings
are the same. Only the references to mode groups may differ, if the groups do not know their interfaces in both. -/
theorem C73_reload (skip stop : Bool) (version : Nat) (doc : Document)
    (h : WellFormedPkgs doc.packages) (hn : (doc.packages.map Pkg.name).Nodup)
    (ha : doc.schemaVersion < 50 → areasNamedPkgs doc.packages = true)
    (hv : skip = true → SameSide version doc.schemaVersion) :
    ∃ text doc', Older.writeDoc skip doc = .ok text ∧ Older.readDoc stop version text = .ok doc' ∧
      ∀ way v, ElementAt doc.packages way v → ∃ v', ElementAt doc'.packages way v' ∧ Same (remains v) v' ∧
        ∀ K K' l, K'.behavior = K.behavior → K'.settings = K.settings →
          (createAccess doc'.packages K' way v' l).2 = (createAccess doc.packages K way v l).2 ∧
          (createAccess doc'.packages K' way v' l).1.map withoutGroup =
            (createAccess doc.packages K way v l).1.map withoutGroup ∧
          (K'.group = K.group →
            (createAccess doc'.packages K' way v' l).1 = (createAccess doc.packages K way v l).1) := by
  obtain ⟨text, w, r⟩ := Older.doc_rt skip stop version doc h hn ha hv
  refine ⟨text, _, w, r, fun way v hat => ⟨_, element_norm hat, same_norm false v, fun K K' l h1 h2 => ?_⟩⟩
  simp only [access_norm]
  have hbare : ((createAccess doc.packages K' way v l).1.map withoutGroup, (createAccess doc.packages K' way v l).2) =
      ((createAccess doc.packages K way v l).1.map withoutGroup, (createAccess doc.packages K way v l).2) := by
    unfold createAccess
    rw [h1, h2]
    split
    · cases K.settings with
      | none => rfl
      | some s =>
        simp only
        have e1 := create_bare s (portsOf doc.packages K' way v) l []
        have e2 := create_bare s (portsOf doc.packages K way v) l []
        rw [← e1, ← e2, ports_bare doc.packages K K']
    · rfl
  obtain ⟨e1, e2⟩ := Prod.mk.inj hbare
  refine ⟨e2, e1, fun hg => ?_⟩
  have : K' = K := by
    cases K; cases K'
    simp only at h1 h2 hg
    subst h1 h2 hg
    rfl
  rw [this]

/-- C73: in a behaviour that does not know its component, as after loading, no access points can be made. -/
theorem C73_loaded_finding (ps : List Pkg) (K : Known) (hK : K.behavior = false) (way : List String) (v : Val Cls)
    (l : List (String × Extra)) : createAccess ps K way v l = ([], .error .runtimeError) := by
  simp [createAccess, hK]

/-! ### A document -/

open Verif.Props.CodecEvent (sample app speed value signal sample_wf sample_at signal_at)

/-- The behaviour knows its component; the prefixes of two kinds of points are set. -/
def known : Known where
  behavior := true
  group := fun _ => true
  settings := some fun s => if s = "data_receive_point_prefix" then some (some "REC")
    else if s = "data_read_access_prefix" then some (some "READ") else Settings.init s

/-- The hypotheses of `C73_documented` hold for the data element of the sample. -/
example : createAccess sample.packages known ["C", "App"] app [("READ:Speed/V", {})] =
    ([⟨.dataRead, some "READ_Speed_V", "/C/App/Speed", some "/I/S/V"⟩], .ok ()) := by
  have := C73_documented sample_wf known rfl rfl sample_at rfl (by decide +kernel) (text := "READ:Speed/V")
    (w := some .read) (pn := "Speed".toList) (en := "V".toList) (x := speed) (cp := .RequirePortPrototype)
    (c := .SenderReceiverInterface) (wayI := ["I", "S"]) (t := signal) (e := value) (n := "V") (slot := .dataRead)
    (key := "data_read_access_prefix") (pre := "READ")
    (.prefixed (x := "READ".toList) (ws := []) (t := "Speed/V".toList) (by decide) ⟨"READ", by decide, by decide⟩
      (by simp) (by decide +kernel) (.elem "Speed".toList "V".toList (by decide)))
    (List.Mem.head _) (by show elemName speed = _; decide +kernel) rfl
    ⟨_, rfl, rfl, signal_at, rfl⟩ .data (by decide +kernel)
    (.inr ⟨by decide, List.Mem.head _, by show elemName value = _; decide +kernel⟩) rfl
    (.read (.inl rfl)) rfl (by simp)
  exact this

/-- Without a prefix it is received by argument; other ports there are not. -/
example : createAccess sample.packages known ["C", "App"] app [("Speed", {})] =
    ([⟨.receiveByArgument, some "REC_Speed_V", "/C/App/Speed", some "/I/S/V"⟩], .ok ()) ∧
    createAccess sample.packages known ["C", "App"] app [("Speed", {}), ("Other", {})] =
    ([⟨.receiveByArgument, some "REC_Speed_V", "/C/App/Speed", some "/I/S/V"⟩], .error .valueError) := by
  constructor <;> decide +kernel

/-- A document with parameters and modes. -/
def gains : Val Cls := .obj .ParameterInterface [("name", .str "P"),
  ("parameters", .list [.obj .ParameterDataPrototype [("name", .str "K")], .obj .ParameterDataPrototype [("name", .str "L")]])]

def ctrl : Val Cls := .obj .RequirePortPrototype [("name", .str "Ctrl"),
  ("port_interface_ref", .ref ⟨"PortInterfaceRef", "/I/M", "MODE_SWITCH_INTERFACE"⟩)]

def cal : Val Cls := .obj .RequirePortPrototype [("name", .str "Cal"),
  ("port_interface_ref", .ref ⟨"PortInterfaceRef", "/I/P", "PARAMETER_INTERFACE"⟩)]

def other : Val Cls := .obj .ApplicationSoftwareComponentType [("name", .str "App"), ("ports", .list [ctrl, cal])]

def second : Document :=
  ⟨51, [.mk [("name", .str "C")] [other] [], .mk [("name", .str "I")] [CodecEvent.switch, gains] []]⟩

theorem second_wf : WellFormedPkgs second.packages := by
  have h1 : WellFormed .ApplicationSoftwareComponentType other := ⟨by decide +kernel, by decide +kernel⟩
  have h2 : WellFormed .ModeSwitchInterface CodecEvent.switch := ⟨by decide +kernel, by decide +kernel⟩
  have h3 : WellFormed .ParameterInterface gains := ⟨by decide +kernel, by decide +kernel⟩
  simp only [second, WellFormedPkgs, WellFormedPkg, List.mem_cons, List.not_mem_nil, or_false, and_true]
  refine ⟨⟨⟨by decide +kernel, by decide +kernel⟩, ?_, by decide +kernel⟩,
    ⟨by decide +kernel, by decide +kernel⟩, ?_, by decide +kernel⟩
  · rintro v rfl
    exact ⟨_, by decide +kernel, h1⟩
  · rintro v (rfl | rfl)
    · exact ⟨_, by decide +kernel, h2⟩
    · exact ⟨_, by decide +kernel, h3⟩

theorem other_at : ElementAt second.packages ["C", "App"] other :=
  .mk (way := ["C"]) (.here (p := .mk [("name", .str "C")] [other] []) (by simp [second]) rfl)
    (by simp [Pkg.elements]) rfl

theorem in_second {v : Val Cls} {n : String} (hv : v ∈ [CodecEvent.switch, gains]) (hn : elemName v = some n) :
    ElementAt second.packages ["I", n] v :=
  .mk (way := ["I"]) (.here (p := .mk [("name", .str "I")] [CodecEvent.switch, gains] []) (by simp [second]) rfl) hv hn

/-- The prefix of points for parameters is set. -/
def known2 : Known where
  behavior := true
  group := fun _ => true
  settings := some fun s => if s = "parameter_access_prefix" then some (some "CAL") else Settings.init s

/-- The hypotheses of `C73_parameter` and `C73_mode_default` hold for it. -/
example : createAccess second.packages known2 ["C", "App"] other [("Cal/L", {})] =
    ([⟨.parameter, some "CAL_Cal_L", "/C/App/Cal", some "/I/P/L"⟩], .ok ()) := by
  have := C73_parameter second_wf known2 rfl rfl other_at rfl (by decide +kernel) (text := "Cal/L")
    (w := none) (pn := "Cal".toList) (en := "L".toList) (x := cal) (wayI := ["I", "P"]) (t := gains) (pre := "CAL")
    (.bare (t := "Cal/L".toList) (by decide) (.elem "Cal".toList "L".toList (by decide)))
    (.tail _ (.head _)) (by show elemName cal = _; decide +kernel)
    ⟨_, rfl, rfl, in_second (by simp) rfl, rfl⟩ (by decide +kernel) (.tail _ (.head _))
    (by show elemName (.obj .ParameterDataPrototype [("name", .str "L")]) = _; decide +kernel) (by decide) rfl
  exact this

example : createAccess second.packages known2 ["C", "App"] other [("Ctrl", {})] =
    ([⟨.modeAccess, none, "/C/App/Ctrl", some "/I/M/G"⟩], .ok ()) := by
  have := C73_mode_default second_wf known2 rfl rfl other_at rfl (by decide +kernel) (text := "Ctrl")
    (pn := "Ctrl".toList) (en := []) (x := ctrl) (wayI := ["I", "M"]) (t := CodecEvent.switch) (g := CodecEvent.group)
    (.bare (t := "Ctrl".toList) (by decide) (.port "Ctrl".toList (by decide)))
    (.head _) (by show elemName ctrl = _; decide +kernel) (by decide)
    ⟨_, rfl, rfl, in_second (by simp) rfl, rfl⟩ rfl (.inl ⟨rfl, rfl⟩) rfl (n := "G") rfl
  exact this

/-- The hypotheses of `C73_one_by_one` hold for both. -/
example : known.behavior = true ∧ known.settings.isSome = true ∧ known2.behavior = true ∧
    known2.settings.isSome = true := ⟨rfl, rfl, rfl, rfl⟩

/-- A part there is not. -/
example : ∃ err, createAccess second.packages known2 ["C", "App"] other [("Cal/M", {})] = ([], .error err) :=
  ⟨.runtimeError, by decide +kernel⟩

/-- After loading there are no points. -/
example : createAccess sample.packages { known with behavior := false } ["C", "App"] app [("Speed", {})] =
    ([], .error .runtimeError) := C73_loaded_finding _ _ rfl _ _ _

end Verif.Props.CodecAccess
