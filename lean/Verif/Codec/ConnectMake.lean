import Verif.Codec.ConnectAdd
/-
Lemmas for C67: ports that can be joined are joined.
-/
set_option linter.unusedSimpArgs false
namespace Verif.Codec.Connect
open Verif.Py Verif.Ref Verif.Codec Verif.Codec.Spec Verif.Codec.Find Verif.Codec.FindSpec
open Verif.Codec.ConnectSpec Verif.Pkg.Spec
open Verif.Codec.Owner (shortName)
open Verif.Codec.TypeHeader (attr refOf locate There locatePkgs_there)

theorem locate_good {ps : List Pkg} (hw : WellFormedPkgs ps) {r : String} {way : List String} {v : Val Cls}
    (h : locate ps r = .ok (some (.element way v))) : ∀ n ∈ way, GoodName n := by
  obtain ⟨names, h1, -, h3⟩ := locatePkgs_there [] ps _ _ hw
    (by simpa using not_mem_partL_fst '/' (stripLead '/' r.toList)) h
  simp only [List.nil_append] at h1
  subst h1
  exact h3

theorem elem_port {x : Val Cls} {p : Swc.Port} {n : String} (h : IsPort x p) (hn : elemName x = some n) :
    p.name = n := by
  have := h.name
  rw [hn] at this
  cases this
  rfl

/-- What is named by a text is named by it in the model of connectors. -/
theorem fits_names {ps : List Pkg} {way : List String} {v : Val Cls} (hw : WellFormedPkgs ps)
    (hv : ElementAt ps way v) (hc : ∃ fs, v = .obj .CompositionSwComponentType fs)
    (hg : ∀ n ∈ way, GoodName n) {s : String} {d : End} (h : Named ps way v s d)
    (hd : '/' ∉ (last d.way).toList) (hx : ∀ w x, d.comp = some (w, x) → '/' ∉ (last w).toList) :
    ∃ e, Swc.Spec.Names (envOf ps) (compOf way v) s e ∧ Fits ps way v e d := by
  obtain ⟨fs, rfl⟩ := hc
  obtain ⟨c, gs, hv1, -, hwf⟩ := elem_wf hv hw
  cases hv1
  cases h with
  | @outer x n _ h1 h2 h3 =>
    obtain ⟨p, hi⟩ := port_there (by simp) hwf h1
    have hn := elem_port hi h2
    subst hn
    rw [last_append] at hd
    refine ⟨.outer p, .outer _ p (List.mem_filterMap.2 ⟨x, h1, hi.port⟩) ?_ hd,
      .outer ⟨⟨_, hv, .inr ⟨_, rfl⟩, h1⟩, hg, hi, hi.ne, hd⟩ h1⟩
    rcases h3 with rfl | rfl
    · exact .inl rfl
    · exact .inr (by simp)
  | @inner x t p r wayT m n _ h1 h2 h3 h4 h5 h6 h7 h8 h9 =>
    obtain ⟨c, us, rfl, hcc, hu⟩ := comp_wf h5 hw h6
    obtain ⟨q, hi⟩ := port_there hcc hu h7
    obtain ⟨m', e1, e2, e3, e4⟩ := part_there hwf (.inl rfl) h1
    rw [h2] at e1
    cases e1
    have hn := elem_port hi h8
    subst hn
    rw [last_append] at hd
    have hm := hx _ _ rfl
    rw [last_append] at hm
    have hpn : (protoOf x).name = m := e2
    have htr : (protoOf x).typeRef = some r.value := by
      rw [field_attr] at h3
      simp only [protoOf, h3, refOf]
    have henv : ∃ ct, envOf ps ((protoOf x).typeRef.getD "None") = .ok (some (.swc ct)) ∧
        ct.ref = some (absRef wayT) ∧ ct.ports = portsOf (.obj c us) := by
      rw [htr, Option.getD_some]
      unfold envOf
      rw [h4]
      simp only [List.mem_cons, List.not_mem_nil, or_false] at hcc
      rcases hcc with rfl | rfl
      · exact ⟨_, rfl, rfl, rfl⟩
      · exact ⟨_, rfl, rfl, rfl⟩
    obtain ⟨ct, c1, c2, c3⟩ := henv
    refine ⟨.inner (protoOf x) ct q, .inner _ _ ct q (List.mem_map.2 ⟨x, h1, rfl⟩) c1
      (by rw [c3]; exact List.mem_filterMap.2 ⟨p, h7, hi.port⟩) ?_ (by rw [hpn]; exact hm) hd, ?_⟩
    · rw [hpn]
      rcases h9 with rfl | rfl
      · exact .inl (by simp)
      · exact .inr (by simp)
    · have := Fits.inner (ps := ps) (way := way) (v := .obj .CompositionSwComponentType fs)
        (e := protoOf x) (t := ct) (p := q) (owner := wayT) (y := p) h1 (by rw [hpn]; exact h2)
        (by rw [hpn]; exact ⟨e3, hm⟩) (by rw [hpn]; exact e4) c2
        ⟨⟨_, h5, h6, h7⟩, locate_good hw h4, hi, ⟨hi.ne, hd⟩⟩
      rwa [hpn] at this

theorem ports_names {c : Cls} (hc : c ∈ [Cls.CompositionSwComponentType, .ApplicationSoftwareComponentType])
    {fs : List (String × Val Cls)} (h : WellFormed c (.obj c fs)) :
    (members (.obj c fs) "ports").map elemName =
      ((portsOf (.obj c fs)).map (·.name)).map some := by
  unfold portsOf
  have key : ∀ l : List (Val Cls), (∀ x ∈ l, ∃ p, IsPort x p) →
      l.map elemName = ((l.filterMap portOf).map (·.name)).map some := by
    intro l
    induction l with
    | nil => intro _; rfl
    | cons x l ih =>
      intro hl
      obtain ⟨p, hp⟩ := hl x (by simp)
      rw [List.filterMap_cons_some hp.port, List.map_cons, List.map_cons, List.map_cons, hp.name,
        ih fun y hy => hl y (by simp [hy])]
  exact key _ fun x hx => port_there hc h hx

theorem parts_names {fs : List (String × Val Cls)} (h : WellFormed .CompositionSwComponentType
      (.obj .CompositionSwComponentType fs)) {a : String} (ha : a = "components" ∨ a = "connectors") :
    (members (.obj .CompositionSwComponentType fs) a).map elemName =
      ((members (.obj .CompositionSwComponentType fs) a).map shortName).map some := by
  rw [List.map_map]
  refine List.map_congr_left fun x hx => ?_
  obtain ⟨n, h1, h2, -, -⟩ := part_there h ha hx
  rw [h1, Function.comp_apply, h2]

theorem nodup_some {l : List String} (h : (l.map some).Nodup) : l.Nodup := by
  induction l with
  | nil => exact .nil
  | cons a l ih =>
    rw [List.map_cons, List.nodup_cons] at h
    rw [List.nodup_cons]
    exact ⟨fun hm => h.1 (List.mem_map.2 ⟨a, hm, rfl⟩), ih h.2⟩

/-- The names in a composition differ. -/
theorem composition_named {fs : List (String × Val Cls)} (h : WellFormed .CompositionSwComponentType
      (.obj .CompositionSwComponentType fs))
    (hd : ((findable (.obj .CompositionSwComponentType fs)).map elemName).Nodup) :
    Swc.Spec.WellNamed ((members (.obj .CompositionSwComponentType fs) "components").map shortName ++
      (members (.obj .CompositionSwComponentType fs) "connectors").map shortName)
      (portsOf (.obj .CompositionSwComponentType fs)) := by
  have f0 : findable (.obj .CompositionSwComponentType fs) =
      members (.obj .CompositionSwComponentType fs) "components" ++
      (members (.obj .CompositionSwComponentType fs) "connectors" ++
      members (.obj .CompositionSwComponentType fs) "ports") := by
    simp [findable, searched]
  rw [f0, List.map_append, List.map_append, parts_names h (.inl rfl), parts_names h (.inr rfl),
    ports_names (by simp) h, ← List.map_append, ← List.map_append] at hd
  unfold Swc.Spec.WellNamed
  rw [List.append_assoc]
  exact nodup_some hd

theorem type_named {ps : List Pkg} (hw : WellFormedPkgs ps)
    (hd : ∀ way t, ElementAt ps way t → IsComponent t → ((findable t).map elemName).Nodup)
    {r : String} {ct : Swc.CompType} (h : envOf ps r = .ok (some (.swc ct))) :
    Swc.Spec.WellNamed ct.inner ct.ports := by
  obtain ⟨way, v, -, h1, -, h2, -, -, h3⟩ := env_swc hw h
  obtain ⟨c, fs, rfl, hc, hwf⟩ := comp_wf h1 hw h2
  have hn := hd _ _ h1 h2
  unfold envOf at h
  rw [h3] at h
  simp only [Except.ok.injEq, Option.some.injEq] at h
  simp only [List.mem_cons, List.not_mem_nil, or_false] at hc
  rcases hc with rfl | rfl
  · simp only [foundAs] at h
    cases h
    exact composition_named hwf hn
  · simp only [foundAs] at h
    cases h
    have f0 : findable (.obj .ApplicationSoftwareComponentType fs) =
        members (.obj .ApplicationSoftwareComponentType fs) "ports" := by
      simp [findable, searched]
    rw [f0, ports_names (by simp) hwf] at hn
    unfold Swc.Spec.WellNamed
    rw [List.nil_append]
    exact nodup_some hn

end Verif.Codec.Connect
