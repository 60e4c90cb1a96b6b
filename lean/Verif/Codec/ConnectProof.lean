import Verif.Codec.ConnectChange
import Verif.Codec.TypeHeaderEnv
import Verif.Codec.ConstantProof
import Verif.Swc.ConnectLemmas
/-
Lemmas for C67.
-/
set_option linter.unusedSimpArgs false
namespace Verif.Codec.Connect
open Verif.Py Verif.Ref Verif.Codec Verif.Codec.Spec Verif.Codec.Find Verif.Codec.FindSpec
open Verif.Codec.ConnectSpec Verif.Pkg.Spec
open Verif.Codec.Owner (shortName)
open Verif.Codec.TypeHeader (attr refOf locate locatePkgs Place get_norm kept_list name_attr normPlace locatePkgs_norm
  refOf_norm There locatePkgs_there locate_find)

/-! ### Saving and loading makes no difference -/

theorem read_kept (c : Cls) : ∀ a ∈ ["ports", "components", "connectors", "type_ref"],
    kept? c a = true := by
  have h : ∀ n < 186, ∀ a ∈ ["ports", "components", "connectors", "type_ref"],
      kept? (Cls.ofNat n) a = true := by decide +kernel
  have := h c.ctorIdx (by cases c <;> decide)
  rwa [Cls.ofNat_ctorIdx] at this

theorem port_norm (b : Bool) (v : Val Cls) : portOf (normVal tables b v) = portOf v := by
  have h := name_attr b v
  cases v with
  | obj c fs =>
    rw [normVal] at h ⊢
    simp only [portOf, h]
    cases c <;> rfl
  | _ => simp [normVal, portOf, portKind]

theorem members_kept (b : Bool) (v : Val Cls) (a : String)
    (ha : a ∈ ["ports", "components", "connectors", "type_ref"]) :
    ∃ b', members (normVal tables b v) a = (members v a).map (normVal tables b') := by
  cases v with
  | obj c fs => rw [normVal]; exact ⟨_, kept_list (read_kept c a ha) fs⟩
  | _ => exact ⟨false, by simp [normVal, members]⟩

theorem ports_norm (b : Bool) (v : Val Cls) : portsOf (normVal tables b v) = portsOf v := by
  obtain ⟨b', h⟩ := members_kept b v "ports" (by simp)
  unfold portsOf
  rw [h, List.filterMap_map]
  congr 1
  funext x
  exact port_norm b' x

theorem proto_norm (b : Bool) (v : Val Cls) : protoOf (normVal tables b v) = protoOf v := by
  have h : refOf (attr (normVal tables b v) "type_ref") = refOf (attr v "type_ref") := by
    cases v with
    | obj c fs =>
      simp only [normVal, attr]
      rw [get_norm c _ (read_kept c _ (by simp)) fs, refOf_norm]
    | _ => simp [normVal, attr]
  simp only [protoOf, name_attr, h]

theorem names_norm (b : Bool) (v : Val Cls) (a : String)
    (ha : a ∈ ["ports", "components", "connectors", "type_ref"]) :
    (members (normVal tables b v) a).map shortName = (members v a).map shortName := by
  obtain ⟨b', h⟩ := members_kept b v a ha
  rw [h, List.map_map]
  exact List.map_congr_left fun x _ => name_attr b' x

theorem found_norm (b : Bool) (ref : String) (v : Val Cls) :
    foundAs ref (normVal tables b v) = foundAs ref v := by
  have h1 := ports_norm b v
  have h2 := names_norm b v "components" (by simp)
  have h3 := names_norm b v "connectors" (by simp)
  have h4 := name_attr b v
  cases v with
  | obj c fs =>
    rw [normVal] at h1 h2 h3 h4 ⊢
    cases c <;> simp only [foundAs, h1, h2, h3, h4]
  | _ => simp [normVal, foundAs]

theorem env_norm (ps : List Pkg) : envOf (normPkgs ps) = envOf ps := by
  funext r
  unfold envOf
  have : locate (normPkgs ps) r = (locate ps r).map fun r => r.map normPlace :=
    locatePkgs_norm [] ps _
  rw [this]
  cases locate ps r with
  | error e => rfl
  | ok x =>
    cases x with
    | none => rfl
    | some x =>
      cases x with
      | element way v => simp only [Except.map, Option.map_some, normPlace, found_norm]
      | _ => rfl

theorem comp_norm (b : Bool) (way : List String) (v : Val Cls) :
    compOf way (normVal tables b v) = compOf way v := by
  obtain ⟨b1, h1⟩ := members_kept b v "components" (by simp)
  obtain ⟨b2, h2⟩ := members_kept b v "connectors" (by simp)
  unfold compOf
  rw [h1, h2, List.map_map, List.map_map, ports_norm, name_attr]
  congr 1
  · exact List.map_congr_left fun x _ => proto_norm b1 x
  · exact List.map_congr_left fun x _ => by simp only [Function.comp_apply, oldConnector, name_attr]

/-! ### Well-formed objects -/

theorem plain_get {fs : List (String × Val Cls)} (h : plainFields xmlAttrs fs = true) {a : String}
    {v : Val Cls} (ha : dictGet fs a = some v) : plainVal xmlAttrs v = true := by
  induction fs with
  | nil => cases ha
  | cons p fs ih =>
    obtain ⟨k, x⟩ := p
    simp only [plainFields, Bool.and_eq_true] at h
    simp only [dictGet] at ha
    split at ha
    · cases ha; exact h.1.1
    · exact ih h.2 ha

theorem plain_mem {l : List (Val Cls)} (h : plainList xmlAttrs l = true) {v : Val Cls} (hv : v ∈ l) :
    plainVal xmlAttrs v = true := by
  induction l with
  | nil => simp at hv
  | cons x l ih =>
    simp only [plainList, Bool.and_eq_true] at h
    rcases List.mem_cons.1 hv with rfl | hv
    · exact h.1
    · exact ih h.2 hv

/-- What well-formed objects have that have a name. -/
theorem name_there {c : Cls} {fs : List (String × Val Cls)} (h : WellFormed c (.obj c fs))
    (hc : fieldOf (tables.schema c) "name" = some (Schema.req "name" [.str])) :
    ∃ n, nameOf fs = some n ∧ shortName (.obj c fs) = n ∧ n ≠ "" ∧ plainText n = true := by
  obtain ⟨h1, h2⟩ := h
  simp only [hasS, Bool.and_eq_true] at h1
  obtain ⟨⟨-, ho⟩, hf⟩ := h1
  have hk : "name" ∈ fs.map (·.1) := by
    unfold orderOk at ho
    simp only [Bool.and_eq_true, List.all_eq_true] at ho
    have := ho.2 _ (fieldOf_mem hc).1
    exact of_decide_eq_true this
  cases hg : dictGet fs "name" with
  | none => exact absurd hk (dictGet_none.1 hg)
  | some v =>
    obtain ⟨f, h3, h4⟩ := hasFields_get hf hg
    rw [hc] at h3
    cases h3
    have h5 := plain_get (by simpa [plainVal] using h2) hg
    cases v with
    | str s =>
      refine ⟨s, by simp [nameOf, hg], by simp [shortName, hg], ?_, by simpa [plainVal] using h5⟩
      simpa [hasField, Schema.req, hasS] using h4
    | _ => simp [hasField, Schema.req, hasS] at h4

theorem named_cls : ∀ c ∈ [Cls.ProvidePortPrototype, .RequirePortPrototype, .PRPortPrototype,
    .SwComponentPrototype, .AssemblySwConnector, .DelegationSwConnector, .PassThroughSwConnector,
    .CompositionSwComponentType, .ApplicationSoftwareComponentType],
    fieldOf (tables.schema c) "name" = some (Schema.req "name" [.str]) := by
  simp only [List.mem_cons, List.not_mem_nil, or_false]
  rintro c (rfl | rfl | rfl | rfl | rfl | rfl | rfl | rfl | rfl) <;> rfl

/-- The objects in a list attribute. -/
theorem member_wf {c : Cls} {fs : List (String × Val Cls)} (h : WellFormed c (.obj c fs)) {a : String}
    {f : Field Cls} (hf : fieldOf (tables.schema c) a = some f) (hs : f.shape = .many none) {x : Val Cls}
    (hx : x ∈ members (.obj c fs) a) :
    (∃ t ∈ f.alts, hasS tables x t = true) ∧ plainVal xmlAttrs x = true := by
  obtain ⟨h1, h2⟩ := h
  simp only [hasS, Bool.and_eq_true] at h1
  simp only [members] at hx
  split at hx
  · next l hl =>
    obtain ⟨f', h3, h4⟩ := hasFields_get h1.2 hl
    rw [hf] at h3
    cases h3
    unfold hasField at h4
    simp only [hs, Bool.and_eq_true] at h4
    exact ⟨(hasList_iff _ _ _).1 h4.2 x hx,
      plain_mem (by simpa [plainVal] using plain_get (by simpa [plainVal] using h2) hl) hx⟩
  · simp at hx

theorem of_cls {x : Val Cls} {c : Cls} (h : hasS tables x (.cls c) = true)
    (hp : plainVal xmlAttrs x = true) : ∃ fs, x = .obj c fs ∧ WellFormed c (.obj c fs) := by
  cases x with
  | obj c' fs =>
    have : c' = c := by
      simp only [hasS, Bool.and_eq_true, decide_eq_true_eq] at h
      exact h.1.1
    subst this
    exact ⟨fs, rfl, h, hp⟩
  | _ => simp [hasS] at h

/-- What is known of a port. -/
structure IsPort (x : Val Cls) (p : Swc.Port) : Prop where
  port : portOf x = some p
  name : elemName x = some p.name
  ne : p.name ≠ ""
  plain : plainText p.name = true

theorem ports_field : ∀ c ∈ [Cls.CompositionSwComponentType, .ApplicationSoftwareComponentType],
    fieldOf (tables.schema c) "ports" = some (Schema.list "ports"
      [.cls .ProvidePortPrototype, .cls .RequirePortPrototype, .cls .PRPortPrototype]) := by
  simp only [List.mem_cons, List.not_mem_nil, or_false]
  rintro c (rfl | rfl) <;> rfl

theorem port_there {c : Cls} (hc : c ∈ [Cls.CompositionSwComponentType, .ApplicationSoftwareComponentType])
    {fs : List (String × Val Cls)} (h : WellFormed c (.obj c fs)) {x : Val Cls}
    (hx : x ∈ members (.obj c fs) "ports") : ∃ p, IsPort x p := by
  obtain ⟨⟨t, ht, hs⟩, hp⟩ := member_wf h (ports_field c hc) rfl hx
  simp only [Schema.list, List.mem_cons, List.not_mem_nil, or_false] at ht
  rcases ht with rfl | rfl | rfl
  · obtain ⟨gs, rfl, hw⟩ := of_cls hs hp
    obtain ⟨n, h1, h2, h3, h4⟩ := name_there hw (named_cls _ (by simp))
    exact ⟨⟨.p, n⟩, by simp [portOf, portKind, h2], h1, h3, h4⟩
  · obtain ⟨gs, rfl, hw⟩ := of_cls hs hp
    obtain ⟨n, h1, h2, h3, h4⟩ := name_there hw (named_cls _ (by simp))
    exact ⟨⟨.r, n⟩, by simp [portOf, portKind, h2], h1, h3, h4⟩
  · obtain ⟨gs, rfl, hw⟩ := of_cls hs hp
    obtain ⟨n, h1, h2, h3, h4⟩ := name_there hw (named_cls _ (by simp))
    exact ⟨⟨.pr, n⟩, by simp [portOf, portKind, h2], h1, h3, h4⟩

theorem port_back {c : Cls} (hc : c ∈ [Cls.CompositionSwComponentType, .ApplicationSoftwareComponentType])
    {fs : List (String × Val Cls)} (h : WellFormed c (.obj c fs)) {p : Swc.Port}
    (hp : p ∈ portsOf (.obj c fs)) : ∃ x ∈ members (.obj c fs) "ports", IsPort x p := by
  obtain ⟨x, hx, he⟩ := List.mem_filterMap.1 hp
  obtain ⟨q, hq⟩ := port_there hc h hx
  rw [hq.port] at he
  cases he
  exact ⟨x, hx, hq⟩

theorem part_there {fs : List (String × Val Cls)} (h : WellFormed .CompositionSwComponentType
      (.obj .CompositionSwComponentType fs)) {x : Val Cls} {a : String}
    (ha : a = "components" ∨ a = "connectors")
    (hx : x ∈ members (.obj .CompositionSwComponentType fs) a) :
    ∃ n, elemName x = some n ∧ shortName x = n ∧ n ≠ "" ∧ plainText n = true := by
  have key : ∀ c ∈ [Cls.SwComponentPrototype, .AssemblySwConnector, .DelegationSwConnector,
      .PassThroughSwConnector], hasS tables x (.cls c) = true → plainVal xmlAttrs x = true →
      ∃ n, elemName x = some n ∧ shortName x = n ∧ n ≠ "" ∧ plainText n = true := by
    intro c hc hs hp
    obtain ⟨gs, rfl, hw⟩ := of_cls hs hp
    exact name_there hw (named_cls c (by simp at hc ⊢; grind))
  rcases ha with rfl | rfl
  · obtain ⟨⟨t, ht, hs⟩, hp⟩ := member_wf h (f := Schema.list "components" [.cls .SwComponentPrototype])
      (by rfl) rfl hx
    simp only [Schema.list, List.mem_cons, List.not_mem_nil, or_false] at ht
    subst ht
    exact key _ (by simp) hs hp
  · obtain ⟨⟨t, ht, hs⟩, hp⟩ := member_wf h (f := Schema.list "connectors" [.cls .AssemblySwConnector,
      .cls .DelegationSwConnector, .cls .PassThroughSwConnector]) (by rfl) rfl hx
    simp only [Schema.list, List.mem_cons, List.not_mem_nil, or_false] at ht
    rcases ht with rfl | rfl | rfl
    · exact key _ (by simp) hs hp
    · exact key _ (by simp) hs hp
    · exact key _ (by simp) hs hp

/-! ### What the texts name -/

theorem elem_wf {ps : List Pkg} {way : List String} {v : Val Cls} (h : ElementAt ps way v)
    (hw : WellFormedPkgs ps) : ∃ c fs, v = .obj c fs ∧ isARElement c = true ∧ WellFormed c (.obj c fs) := by
  cases h with
  | @mk p way m v hp hv hm =>
    have key : WellFormedPkg p := by
      clear hv hm
      induction hp with
      | here h1 h2 => exact wf_mem hw h1
      | inside h1 h2 h3 ih => exact ih (wf_parts (wf_mem hw h1)).2
    cases p with
    | mk hd es qs =>
      rw [WellFormedPkg] at key
      obtain ⟨c, h1, h2⟩ := key.2.1 v hv
      obtain ⟨fs, rfl, h3⟩ := of_cls h2.1 h2.2
      exact ⟨c, fs, rfl, h1, h3⟩

theorem comp_wf {ps : List Pkg} {way : List String} {v : Val Cls} (h : ElementAt ps way v)
    (hw : WellFormedPkgs ps) (hc : IsComponent v) :
    ∃ c fs, v = .obj c fs ∧ c ∈ [Cls.CompositionSwComponentType, .ApplicationSoftwareComponentType] ∧
      WellFormed c (.obj c fs) := by
  obtain ⟨c, fs, rfl, -, h1⟩ := elem_wf h hw
  refine ⟨c, fs, rfl, ?_, h1⟩
  rcases hc with ⟨gs, hg⟩ | ⟨gs, hg⟩ <;> cases hg <;> simp

/-- A port of the component at the end of a way of names. -/
structure PortAt (ps : List Pkg) (owner : List String) (x : Val Cls) (p : Swc.Port) : Prop where
  owned : ∃ t, ElementAt ps owner t ∧ IsComponent t ∧ x ∈ members t "ports"
  good : ∀ n ∈ owner, GoodName n
  is : IsPort x p
  name : GoodName p.name

/-- An end, as the texts name it and as the model of connectors has it. -/
inductive Fits (ps : List Pkg) (way : List String) (v : Val Cls) : Swc.Spec.End → End → Prop
  | outer {x : Val Cls} {p : Swc.Port} : PortAt ps way x p → x ∈ members v "ports" →
      Fits ps way v (.outer p) ⟨none, way ++ [p.name], x⟩
  | inner {x y : Val Cls} {t : Swc.CompType} {e : Swc.Proto} {p : Swc.Port} {owner : List String} :
      x ∈ members v "components" → elemName x = some e.name → GoodName e.name →
      plainText e.name = true → t.ref = some (absRef owner) → PortAt ps owner y p →
      Fits ps way v (.inner e t p) ⟨some (way ++ [e.name], x), owner ++ [p.name], y⟩

theorem locate_none (acc : List String) (ps : List Pkg) (l : List Char) {way : List String} {v : Val Cls} :
    locatePkgs acc ps (l, []) ≠ .ok (some (.element way v)) := by
  induction ps with
  | nil => simp [locatePkgs]
  | cons p ps ih =>
    rw [locatePkgs]
    split
    · simp
    · exact ih

/-- What an environment with a component type at the end of a reference says. -/
theorem env_swc {ps : List Pkg} (hw : WellFormedPkgs ps) {r : String} {t : Swc.CompType}
    (h : envOf ps r = .ok (some (.swc t))) :
    ∃ way v, find ps r = .ok (some (.obj v)) ∧ ElementAt ps way v ∧ (∀ n ∈ way, GoodName n) ∧
      IsComponent v ∧ t.ref = some (absRef way) ∧ t.ports = portsOf v ∧
      locate ps r = .ok (some (.element way v)) := by
  unfold envOf at h
  split at h
  · cases h
  · cases h
  · next way v hl =>
    have hf : find ps r = .ok (some (.obj v)) := by
      rw [← locate_find, hl]; rfl
    obtain ⟨names, h1, h2, h3⟩ := locatePkgs_there [] ps _ _ hw
      (by simpa using not_mem_partL_fst '/' (stripLead '/' r.toList)) hl
    simp only [List.nil_append] at h1
    subst h1
    refine ⟨way, v, hf, h2, h3, ?_⟩
    unfold foundAs at h
    split at h
    · cases h; exact ⟨.inl ⟨_, rfl⟩, rfl, rfl, hl⟩
    · cases h; exact ⟨.inr ⟨_, rfl⟩, rfl, rfl, hl⟩
    · cases h
  · cases h

theorem env_None {ps : List Pkg} {way : List String} {v : Val Cls} :
    locate ps "None" ≠ .ok (some (.element way v)) := by
  unfold locate
  have : partL '/' (stripLead '/' "None".toList) = ("None".toList, []) := by decide
  rw [this]
  exact locate_none _ _ _

theorem dictGet_lookup (fs : List (String × Val Cls)) (a : String) : dictGet fs a = fs.lookup a := by
  induction fs with
  | nil => rfl
  | cons p fs ih =>
    obtain ⟨k, x⟩ := p
    simp only [dictGet, List.lookup]
    by_cases h : k = a
    · subst h; simp
    · rw [if_neg h, ih]
      have : (a == k) = false := by simpa using fun e => h e.symm
      rw [this]

theorem field_attr (x : Val Cls) (a : String) : field x a = attr x a := by
  cases x <;> simp [field, attr, dictGet_lookup]

theorem ref_field {x : Val Cls} {r : String} (h : refOf (attr x "type_ref") = some r) :
    ∃ r', field x "type_ref" = some (.ref r') ∧ r'.value = r := by
  rw [field_attr]
  cases ha : attr x "type_ref" with
  | none => rw [ha] at h; cases h
  | some y =>
    rw [ha] at h
    cases y with
    | ref r' => cases h; exact ⟨r', rfl, rfl⟩
    | _ => cases h

theorem names_fit {ps : List Pkg} {way : List String} {v : Val Cls} (hw : WellFormedPkgs ps)
    (hv : ElementAt ps way v) (hc : ∃ fs, v = .obj .CompositionSwComponentType fs)
    (hg : ∀ n ∈ way, GoodName n) {s : String} {e : Swc.Spec.End}
    (h : Swc.Spec.Names (envOf ps) (compOf way v) s e) : ∃ e', Named ps way v s e' ∧ Fits ps way v e e' := by
  obtain ⟨fs, rfl⟩ := hc
  obtain ⟨c, gs, hv1, -, hwf⟩ := elem_wf hv hw
  cases hv1
  cases h with
  | outer p hp hs hsl =>
    obtain ⟨x, hx, hi⟩ := port_back (by simp) hwf hp
    have hgp : GoodName p.name := ⟨hi.ne, hsl⟩
    refine ⟨⟨none, way ++ [p.name], x⟩, .outer hx hi.name ?_,
      .outer ⟨⟨_, hv, .inr ⟨_, rfl⟩, hx⟩, hg, hi, hgp⟩ hx⟩
    rcases hs with hs | hs
    · exact .inl (String.toList_injective hs)
    · exact .inr (String.toList_injective (by simpa using hs))
  | inner e t p he ht hp hs hsl1 hsl2 =>
    obtain ⟨x, hx, rfl⟩ := List.mem_map.1 he
    obtain ⟨owner, u, h1, h2, h3, h4, h5, h6, h7⟩ := env_swc hw ht
    obtain ⟨c, us, rfl, hcc, hu⟩ := comp_wf h2 hw h4
    rw [h6] at hp
    obtain ⟨y, hy, hi⟩ := port_back hcc hu hp
    obtain ⟨m, hm1, hm2, hm3, hm4⟩ := part_there hwf (.inl rfl) hx
    have hpn : (protoOf x).name = m := hm2
    cases htr : refOf (attr x "type_ref") with
    | none =>
      have : (protoOf x).typeRef = none := htr
      rw [this] at h7
      exact absurd h7 env_None
    | some r =>
      have hr : (protoOf x).typeRef = some r := htr
      obtain ⟨r', hf, hr'⟩ := ref_field htr
      rw [hr] at h7
      rw [hpn] at hs hsl1
      refine ⟨⟨some (way ++ [m], x), owner ++ [p.name], y⟩,
        .inner hx hm1 hf (by rw [hr']; exact h7) h2 h4 hy hi.name ?_, ?_⟩
      · rcases hs with hs | hs
        · exact .inl (String.toList_injective (by simpa using hs))
        · exact .inr (String.toList_injective (by simpa using hs))
      · have := Fits.inner (ps := ps) (way := way) (v := .obj .CompositionSwComponentType fs)
          (e := protoOf x) (t := t) (p := p) (owner := owner) (y := y) hx (by rw [hpn]; exact hm1)
          (by rw [hpn]; exact ⟨hm3, hsl1⟩) (by rw [hpn]; exact hm4) h5
          ⟨⟨_, h2, h4, hy⟩, h3, hi, ⟨hi.ne, hsl2⟩⟩
        rwa [hpn] at this

end Verif.Codec.Connect
