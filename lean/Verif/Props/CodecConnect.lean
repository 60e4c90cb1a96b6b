import Verif.Codec.ConnectMake
import Verif.Props.SwcConnect
import Verif.Codec.OlderProof
/-
C67: connectors made in documents that are saved and loaded.
-/
set_option linter.unusedSimpArgs false
namespace Verif.Props.CodecConnect
open Verif.Py Verif.Ref Verif.Pkg.Spec Verif.Codec Verif.Codec.Spec Verif.Codec.Find Verif.Codec.FindSpec
open Verif.Codec.Connect Verif.Codec.ConnectSpec
open Verif.Codec.Older.Spec (areasNamedPkgs SameSide)

theorem mem_norm {ps : List Pkg} {p : Pkg} (h : p ∈ ps) : normPkg p ∈ normPkgs ps := by
  induction ps with
  | nil => simp at h
  | cons q ps ih =>
    rw [normPkgs]
    rcases List.mem_cons.1 h with rfl | h
    · simp
    · exact List.mem_cons_of_mem _ (ih h)

theorem package_norm {ps : List Pkg} {way : List String} {p : Pkg} (h : PackageAt ps way p) :
    PackageAt (normPkgs ps) way (normPkg p) := by
  induction h with
  | here h1 h2 => exact .here (mem_norm h1) ((name_norm _).trans h2)
  | @inside ps p q n way h1 h2 h3 ih =>
    refine .inside (mem_norm h1) ((name_norm _).trans h2) ?_
    cases p with
    | mk hd es qs => exact ih

theorem element_norm {ps : List Pkg} {way : List String} {v : Val Cls} (h : ElementAt ps way v) :
    ElementAt (normPkgs ps) way (normVal tables false v) := by
  cases h with
  | @mk p way m v hp hv hm =>
    refine .mk (package_norm hp) ?_ ((elemName_norm false v).trans hm)
    cases p with
    | mk hd es qs => exact List.mem_map.2 ⟨v, hv, rfl⟩

/-- C67: in the document read, every call of create_connector has the outcome it has in the document
written: the same connector, with the same references, or the same exception. -/
theorem C67_reload (skip stop : Bool) (version : Nat) (doc : Document)
    (h : WellFormedPkgs doc.packages) (hn : (doc.packages.map Pkg.name).Nodup)
    (ha : doc.schemaVersion < 50 → areasNamedPkgs doc.packages = true)
    (hv : skip = true → SameSide version doc.schemaVersion) :
    ∃ text doc', Older.writeDoc skip doc = .ok text ∧ Older.readDoc stop version text = .ok doc' ∧
      ∀ way v, ElementAt doc.packages way v → ∃ v', ElementAt doc'.packages way v' ∧
        Same (remains v) v' ∧ ∀ a b,
          (createConnector doc'.packages way v' a b).2 = (createConnector doc.packages way v a b).2 := by
  obtain ⟨text, w, r⟩ := Older.doc_rt skip stop version doc h hn ha hv
  refine ⟨text, _, w, r, fun way v hv => ⟨_, element_norm hv, same_norm false v, fun a b => ?_⟩⟩
  unfold createConnector
  simp only [env_norm, comp_norm]
  cases (Swc.createConnector (envOf doc.packages) (compOf way v) a b).2 <;> rfl

theorem norm_field {c : Cls} {a : String} {v : Val Cls} {rest : List (String × Val Cls)}
    (ha : a ∉ tables.lost c) (hl : ∀ l, v ≠ .list l) (hv : ∀ b, normVal tables b v = v) :
    normFields tables c ((a, v) :: rest) = (a, v) :: normFields tables c rest := by
  rw [normFields, if_neg ha, hv]
  congr 2
  unfold cutAt
  split
  · unfold Field.cut
    split
    · exact absurd rfl (hl _)
    · rfl
  · rfl

theorem norm_refAttr {c : Cls} {a : String} {r : Option RefObj} {rest : List (String × Val Cls)}
    (ha : a ∉ tables.lost c) :
    normFields tables c (refAttr a r ++ rest) = refAttr a r ++ normFields tables c rest := by
  cases r with
  | none => rfl
  | some r => exact norm_field ha (by simp) (by simp [normVal])

theorem inst_norm (b : Bool) (c : Cls) (i : Swc.InstRef) (h1 : "component_ref" ∉ tables.lost c)
    (h2 : "port_ref" ∉ tables.lost c) : normVal tables b (instObj c i) = instObj c i := by
  unfold instObj
  rw [normVal, norm_refAttr h1]
  have := norm_refAttr (c := c) (a := "port_ref") (r := i.port.map portRefObj) (rest := []) h2
  rw [List.append_nil] at this
  rw [this]
  simp [normFields]

theorem connector_norm (b : Bool) (k : Swc.Connector) :
    normVal tables b (connectorObj k) = connectorObj k := by
  obtain ⟨n, j, p⟩ := k
  cases j with
  | assembly i j =>
    have h1 := fun b => inst_norm b .ProviderPortInstanceRef i (by decide) (by decide)
    have h2 := fun b => inst_norm b .RequesterPortInstanceRef j (by decide) (by decide)
    unfold connectorObj
    rw [normVal, norm_field (by decide) (by simp) (by simp [normVal]),
      norm_field (by decide) (by simp [instObj]) h1, norm_field (by decide) (by simp [instObj]) h2]
    rfl
  | delegation i o =>
    have h0 : innerClass i = .InnerProvidedPortInstanceRef ∨ innerClass i = .InnerRequiredPortInstanceRef := by
      unfold innerClass; split <;> simp
    have h1 : ∀ b, normVal tables b (instObj (innerClass i) i) = instObj (innerClass i) i := by
      intro b
      rcases h0 with h0 | h0 <;> rw [h0] <;> exact inst_norm b _ i (by decide) (by decide)
    unfold connectorObj
    have h3 := norm_refAttr (c := .DelegationSwConnector) (a := "outer_port") (r := o.map portRefObj)
      (rest := []) (by decide)
    rw [List.append_nil] at h3
    simp only [List.cons_append, List.nil_append]
    rw [normVal, norm_field (by decide) (by simp) (by simp [normVal]),
      norm_field (by decide) (by simp [instObj]) h1, h3]
    simp [normFields]
  | passThrough x y =>
    unfold connectorObj
    have h3 := norm_refAttr (c := .PassThroughSwConnector) (a := "require_port") (r := y.map portRefObj)
      (rest := []) (by decide)
    rw [List.append_nil] at h3
    simp only [List.cons_append, List.nil_append]
    rw [normVal, norm_field (by decide) (by simp) (by simp [normVal]), norm_refAttr (by decide), h3]
    simp [normFields]

/-- No component in the packages has two parts of the same name. -/
def PartsDiffer (ps : List Pkg) : Prop :=
  ∀ way t, ElementAt ps way t → IsComponent t → ((findable t).map elemName).Nodup

/-- Where the parts of the composition and the ports are found afterwards. -/
theorem leads {ps : List Pkg} (hw : WellFormedPkgs ps) (hd : (ps.map Pkg.name).Nodup) {way : List String}
    {t x : Val Cls} {n : String} (ht : ElementAt ps way t) (hp : ((findable t).map elemName).Nodup)
    (hx : x ∈ findable t) (hn : elemName x = some n) (hg : ∀ m ∈ way ++ [n], GoodName m) :
    find (normPkgs ps) (absRef (way ++ [n])) = .ok (some (.obj (normVal tables false x))) := by
  rw [find_norm, find_at (.part ht hp hx hn) hw hd hg]
  rfl

theorem part_findable {v x : Val Cls} (hc : ∃ fs, v = .obj .CompositionSwComponentType fs)
    {a : String} (ha : a ∈ ["components", "connectors", "ports"]) (hx : x ∈ members v a) :
    x ∈ findable v := by
  obtain ⟨fs, rfl⟩ := hc
  simp only [findable, List.mem_flatMap]
  exact ⟨a, ha, hx⟩

theorem port_findable {t x : Val Cls} (hc : IsComponent t) (hx : x ∈ members t "ports") :
    x ∈ findable t := by
  rcases hc with ⟨fs, rfl⟩ | hc
  · simp only [findable, List.mem_flatMap]
    exact ⟨"ports", by simp [searched], hx⟩
  · exact part_findable hc (by simp) hx

theorem class_norm (b : Bool) (x : Val Cls) : classOf (normVal tables b x) = classOf x := by
  cases x <;> simp [normVal, classOf]

/-- C67: when create_connector returns a connector, the two texts name ports of the composition or of the
types of its components, the connector joins them, and it has been put behind the other connectors of the
composition, everything else in the packages being as it was.  The document with it can be written and read;
then the connector is found below the composition as it was, and the references in it lead to the ports and
components. -/
theorem C67_saved (skip stop : Bool) (version : Nat) (doc : Document)
    (h : WellFormedPkgs doc.packages) (hn : (doc.packages.map Pkg.name).Nodup)
    (ha : doc.schemaVersion < 50 → areasNamedPkgs doc.packages = true)
    (hv : skip = true → SameSide version doc.schemaVersion) (hd : PartsDiffer doc.packages)
    (way : List String) (v : Val Cls) (hat : ElementAt doc.packages way v)
    (hc : ∃ fs, v = .obj .CompositionSwComponentType fs) (hg : ∀ n ∈ way, GoodName n)
    (a b : PyVal) (ps' : List Pkg) (k : Val Cls)
    (hk : createConnector doc.packages way v a b = (ps', .ok k)) :
    ∃ s1 s2 d e v' text doc' n, a = .str s1 ∧ b = .str s2 ∧
      Named doc.packages way v s1 d ∧ Named doc.packages way v s2 e ∧
      (Connects k d e ∨ e.comp ≠ none ∧ Connects k e d) ∧
      Extended k v v' ∧ Exchanged v v' way doc.packages ps' ∧
      Older.writeDoc skip ⟨doc.schemaVersion, ps'⟩ = .ok text ∧
      Older.readDoc stop version text = .ok doc' ∧ elemName k = some n ∧
      find doc'.packages (absRef (way ++ [n])) = .ok (some (.obj k)) ∧
      Reached doc'.packages d ∧ Reached doc'.packages e := by
  unfold createConnector at hk
  cases hr : Swc.createConnector (envOf doc.packages) (compOf way v) a b with
  | mk c' res =>
    rw [hr] at hk
    cases res with
    | error e => cases hk
    | ok k0 =>
      simp only [Prod.mk.injEq, Except.ok.injEq] at hk
      obtain ⟨rfl, rfl⟩ := hk
      obtain ⟨s1, s2, e1, e2, rfl, rfl, n1, n2, hwant, -, hfresh⟩ := Swc.createConnector_ok hr
      have hj := Swc.wanted_joins hwant
      obtain ⟨d, nd, fd⟩ := names_fit h hat hc hg n1
      obtain ⟨e, ne, fe⟩ := names_fit h hat hc hg n2
      obtain ⟨hkn, hke, ck, hck, hkw⟩ := connector_wf h hat fd fe hj
      obtain ⟨fs, rfl⟩ := hc
      obtain ⟨c0, gs, hv1, -, hwf⟩ := elem_wf hat h
      cases hv1
      have hex := exchanged hat (addTo (connectorObj k0)) h hn
      have hname := name_add (connectorObj k0) (.obj .CompositionSwComponentType fs)
      have hwf' := add_wf hwf hck hkw
      have hps' := ex_wf hex ⟨_, rfl, hwf'⟩ hname h
      have hn' := (ex_names hex).symm ▸ hn
      have ha' : doc.schemaVersion < 50 →
          areasNamedPkgs (change (addTo (connectorObj k0)) way doc.packages) = true :=
        fun hlt => ex_areas hex (areas_add k0 fs) (ha hlt)
      obtain ⟨text, w, r⟩ := Older.doc_rt skip stop version
        ⟨doc.schemaVersion, change (addTo (connectorObj k0)) way doc.packages⟩ hps' hn' ha' hv
      have hnd' := nodup_add hwf hke hkn.2 hfresh (hd way _ hat (.inr ⟨fs, rfl⟩))
      have hat' := ex_at hex hname
      have hcomp' : ∃ gs, addTo (connectorObj k0) (.obj .CompositionSwComponentType fs) =
          .obj .CompositionSwComponentType gs := ⟨_, rfl⟩
      have hgood : ∀ {w : List String} {m : String}, (∀ n ∈ w, GoodName n) → GoodName m →
          ∀ n ∈ w ++ [m], GoodName n := by
        intro w m h1 h2 n hn
        rcases List.mem_append.1 hn with hn | hn
        · exact h1 n hn
        · rw [List.mem_singleton.1 hn]; exact h2
      have lead : ∀ {way' : List String} {t x : Val Cls} {n : String},
          ElementAt (change (addTo (connectorObj k0)) way doc.packages) way' t →
          ((findable t).map elemName).Nodup → x ∈ findable t → elemName x = some n →
          (∀ m ∈ way', GoodName m) → GoodName n →
          LeadsTo (normPkgs (change (addTo (connectorObj k0)) way doc.packages)) (way' ++ [n]) x := by
        intro way' t x n h1 h2 h3 h4 h5 h6
        exact ⟨_, leads hps' hn' h1 h2 h3 h4 (hgood h5 h6), class_norm _ _, elemName_norm _ _,
          same_norm false x⟩
      have port : ∀ {owner x p}, PortAt doc.packages owner x p →
          LeadsTo (normPkgs (change (addTo (connectorObj k0)) way doc.packages)) (owner ++ [p.name]) x := by
        intro owner x p hp
        obtain ⟨t, t1, t2, t3⟩ := hp.owned
        obtain ⟨t', t4, t5⟩ := ex_element hex hname t1
        rcases t5 with rfl | ⟨rfl, rfl⟩
        · exact lead t4 (hd _ _ t1 t2) (port_findable t2 t3) hp.is.name hp.good hp.name
        · refine lead t4 hnd' (part_findable hcomp' (a := "ports") (by simp) ?_) hp.is.name hp.good hp.name
          rw [members_add, if_neg (by decide)]
          exact t3
      have reached : ∀ {f g}, Fits doc.packages way (.obj .CompositionSwComponentType fs) f g →
          Reached (normPkgs (change (addTo (connectorObj k0)) way doc.packages)) g := by
        intro f g hf
        cases hf with
        | outer h1 h2 => exact ⟨port h1, by simp⟩
        | inner h1 h2 h3 h4 h5 h6 =>
          refine ⟨port h6, fun w x hx => ?_⟩
          cases hx
          refine lead hat' hnd' (part_findable hcomp' (a := "components") (by simp) ?_) h2 hg h3
          rw [members_add, if_neg (by decide)]
          exact h1
      refine ⟨s1, s2, d, e, _, text, _, _, rfl, rfl, nd, ne, connects fd fe hj,
        extended_add _ _ _, hex, w, r, hke, ?_, reached fd, reached fe⟩
      have := leads hps' hn' hat' hnd' (x := connectorObj k0)
        (part_findable hcomp' (a := "connectors") (by simp) (by rw [members_add, if_pos rfl]; simp))
        hke (hgood hg hkn)
      rw [connector_norm] at this
      exact this

theorem joins_of {ps : List Pkg} {way : List String} {v : Val Cls} {e1 e2 : Swc.Spec.End} {d e : End}
    (h1 : Fits ps way v e1 d) (h2 : Fits ps way v e2 e) (hj : Joinable d e) :
    ∃ n j, Swc.Spec.Joins (compOf way v) e1 e2 n j := by
  cases h1 with
  | outer a1 a2 =>
    cases h2 with
    | outer b1 b2 => exact ⟨_, _, .passThrough _ _⟩
    | inner b1 b2 b3 b4 b5 b6 => exact ⟨_, _, .delegation' _ _ _ _⟩
  | inner a1 a2 a3 a4 a5 a6 =>
    cases h2 with
    | outer b1 b2 => exact ⟨_, _, .delegation _ _ _ _⟩
    | inner b1 b2 b3 b4 b5 b6 =>
      rcases hj with h | h | ⟨h, h'⟩ | ⟨h, h'⟩
      · cases h
      · cases h
      · exact ⟨_, _, .assembly _ _ _ _ _ _ ((port_class a6.is.port).1.2 h) ((port_class b6.is.port).2.2 h')⟩
      · exact ⟨_, _, .assembly' _ _ _ _ _ _ ((port_class a6.is.port).2.2 h) ((port_class b6.is.port).1.2 h')⟩

/-- C67: conversely, two ports that are named by the texts and can be joined are joined, unless the composition
already has a part with the name the connector would get. -/
theorem C67_made (ps : List Pkg) (h : WellFormedPkgs ps) (hd : PartsDiffer ps) (way : List String) (v : Val Cls)
    (hat : ElementAt ps way v) (hc : ∃ fs, v = .obj .CompositionSwComponentType fs)
    (hg : ∀ n ∈ way, GoodName n) (s1 s2 : String) (d e : End) (h1 : Named ps way v s1 d)
    (h2 : Named ps way v s2 e) (hs1 : NoSlash d) (hs2 : NoSlash e) (hj : Joinable d e)
    (hfree : ∀ k, Connects k d e ∨ e.comp ≠ none ∧ Connects k e d →
      elemName k ∉ (findable v).map elemName) :
    ∃ ps' k, createConnector ps way v (.str s1) (.str s2) = (ps', .ok k) := by
  obtain ⟨e1, n1, f1⟩ := fits_names h hat hc hg h1 hs1.1 hs1.2
  obtain ⟨e2, n2, f2⟩ := fits_names h hat hc hg h2 hs2.1 hs2.2
  obtain ⟨n, j, hjoin⟩ := joins_of f1 f2 hj
  have hcon := connects (k := ⟨n, j, true⟩) f1 f2 hjoin
  obtain ⟨hkn, hke, -⟩ := connector_wf (k := ⟨n, j, true⟩) h hat f1 f2 hjoin
  have hf := hfree _ hcon
  rw [hke] at hf
  obtain ⟨fs, rfl⟩ := hc
  obtain ⟨c0, gs, hv1, -, hwf⟩ := elem_wf hat h
  cases hv1
  have hwn := composition_named hwf (hd _ _ hat (.inr ⟨fs, rfl⟩))
  have f0 : findable (.obj .CompositionSwComponentType fs) =
      members (.obj .CompositionSwComponentType fs) "components" ++
      (members (.obj .CompositionSwComponentType fs) "connectors" ++
      members (.obj .CompositionSwComponentType fs) "ports") := by
    simp [findable, searched]
  rw [f0, List.map_append, List.map_append, parts_names hwf (.inl rfl), parts_names hwf (.inr rfl),
    ports_names (by simp) hwf] at hf
  have hmem : ∀ {l : List String}, some n ∉ l.map some → n ∉ l :=
    fun h hm => h (List.mem_map.2 ⟨_, hm, rfl⟩)
  simp only [List.mem_append, not_or] at hf
  obtain ⟨g1, g2, g3⟩ := hf
  have hin : (compOf way (.obj .CompositionSwComponentType fs)).inner =
      (members (.obj .CompositionSwComponentType fs) "components").map Owner.shortName ++
      (members (.obj .CompositionSwComponentType fs) "connectors").map Owner.shortName := by
    simp only [Swc.Composition.inner, compOf, List.map_map]
    rfl
  obtain ⟨k, -, -, hk⟩ := SwcConnect.C33_created (envOf ps) (compOf way (.obj .CompositionSwComponentType fs))
    s1 s2 e1 e2 n j (by rw [hin]; exact hwn) (fun r t ht => type_named h hd ht)
    (by
      intro x hx
      obtain ⟨y, hy, rfl⟩ := List.mem_map.1 hx
      obtain ⟨m, -, m2, m3, -⟩ := part_there hwf (.inl rfl) hy
      show Owner.shortName y ≠ ""
      rw [m2]
      exact m3)
    (by
      intro p hp
      obtain ⟨y, hy, hi⟩ := port_back (by simp) hwf hp
      exact hi.ne)
    n1 n2 hjoin
    ⟨by rw [hin]; simp only [List.mem_append, not_or]; exact ⟨hmem g1, hmem g2⟩, hmem g3⟩ hkn.2
  refine ⟨change (addTo (connectorObj k)) way ps, connectorObj k, ?_⟩
  unfold createConnector
  simp only [hk]

/-! ### A document -/

/-- A component with a port. -/
def sender : Val Cls := .obj .ApplicationSoftwareComponentType
  [("name", .str "Sender"), ("ports", .list [.obj .ProvidePortPrototype [("name", .str "Out")]])]

def receiver : Val Cls := .obj .ApplicationSoftwareComponentType
  [("name", .str "Receiver"), ("ports", .list [.obj .RequirePortPrototype [("name", .str "In")]])]

/-- A composition of the two, with a port of its own. -/
def system : Val Cls := .obj .CompositionSwComponentType
  [("name", .str "System"), ("ports", .list [.obj .RequirePortPrototype [("name", .str "Outside")]]),
   ("components", .list
    [.obj .SwComponentPrototype [("name", .str "S"),
       ("type_ref", .ref ⟨"SwComponentTypeRef", "/Swcs/Sender", "APPLICATION_SW_COMPONENT_TYPE"⟩)],
     .obj .SwComponentPrototype [("name", .str "R"),
       ("type_ref", .ref ⟨"SwComponentTypeRef", "/Swcs/Receiver", "APPLICATION_SW_COMPONENT_TYPE"⟩)]])]

def sample : Document := ⟨51, [.mk [("name", .str "Swcs")] [sender, receiver, system] []]⟩

theorem sample_wf : WellFormedPkgs sample.packages := by
  have h1 : WellFormed .ApplicationSoftwareComponentType sender := ⟨by decide +kernel, by decide +kernel⟩
  have h2 : WellFormed .ApplicationSoftwareComponentType receiver := ⟨by decide +kernel, by decide +kernel⟩
  have h3 : WellFormed .CompositionSwComponentType system := ⟨by decide +kernel, by decide +kernel⟩
  simp only [sample, WellFormedPkgs, WellFormedPkg, List.mem_cons, List.not_mem_nil, or_false, and_true]
  refine ⟨⟨by decide +kernel, by decide +kernel⟩, ?_, by decide +kernel⟩
  rintro v (rfl | rfl | rfl)
  · exact ⟨_, by decide +kernel, h1⟩
  · exact ⟨_, by decide +kernel, h2⟩
  · exact ⟨_, by decide +kernel, h3⟩

theorem sample_at : ElementAt sample.packages ["Swcs", "System"] system :=
  .mk (way := ["Swcs"]) (.here (p := .mk [("name", .str "Swcs")] [sender, receiver, system] [])
    (by simp [sample]) rfl) (by simp [Pkg.elements]) rfl

/-- The hypotheses of the theorems hold for it. -/
example : WellFormedPkgs sample.packages ∧ (sample.packages.map Pkg.name).Nodup ∧
    PartsDiffer sample.packages ∧ ElementAt sample.packages ["Swcs", "System"] system ∧
    ∀ n ∈ ["Swcs", "System"], GoodName n := by
  refine ⟨sample_wf, by decide, ?_, sample_at, by
    simp only [List.mem_cons, List.not_mem_nil, or_false]; rintro n (rfl | rfl) <;> exact ⟨by decide, by decide⟩⟩
  rintro way t ⟨hp, hv, -⟩ -
  cases hp with
  | here h1 h2 =>
    simp only [sample, List.mem_singleton] at h1
    subst h1
    simp only [Pkg.elements, List.mem_cons, List.not_mem_nil, or_false] at hv
    rcases hv with rfl | rfl | rfl <;> decide +kernel
  | inside h1 h2 h3 =>
    simp only [sample, List.mem_singleton] at h1
    subst h1
    cases h3 <;> simp [Pkg.packages] at *

/-- The ends of a connection in it. -/
def out : End := ⟨some (["Swcs", "System", "S"], .obj .SwComponentPrototype [("name", .str "S"),
    ("type_ref", .ref ⟨"SwComponentTypeRef", "/Swcs/Sender", "APPLICATION_SW_COMPONENT_TYPE"⟩)]),
  ["Swcs", "Sender", "Out"], .obj .ProvidePortPrototype [("name", .str "Out")]⟩

def outside : End := ⟨none, ["Swcs", "System", "Outside"], .obj .RequirePortPrototype [("name", .str "Outside")]⟩

/-- The hypotheses of `C67_made` hold for them. -/
example : Named sample.packages ["Swcs", "System"] system "S/Out" out ∧
    Named sample.packages ["Swcs", "System"] system "/Outside" outside ∧
    NoSlash out ∧ NoSlash outside ∧ Joinable out outside ∧
    ∀ k, Connects k out outside ∨ outside.comp ≠ none ∧ Connects k outside out →
      elemName k ∉ (findable system).map elemName := by
  refine ⟨?_, ?_, ?_, ?_, .inr (.inl rfl), ?_⟩
  · exact .inner (way := ["Swcs", "System"]) (m := "S") (n := "Out") (wayT := ["Swcs", "Sender"]) (t := sender)
      (.head _) rfl rfl rfl
      (.mk (way := ["Swcs"]) (.here (p := .mk [("name", .str "Swcs")] [sender, receiver, system] [])
        (by simp [sample]) rfl) (by simp [Pkg.elements]) rfl)
      (.inl ⟨_, rfl⟩) (.head _) rfl (.inl rfl)
  · exact .outer (way := ["Swcs", "System"]) (n := "Outside") (.head _) rfl (.inr rfl)
  · refine ⟨by decide, fun w x h => ?_⟩
    cases h
    decide
  · exact ⟨by decide, fun w x h => by cases h⟩
  · rintro k (h | ⟨h, -⟩)
    · cases h with
      | assembly _ _ _ _ h => cases h
      | delegation _ h1 _ h2 =>
        cases h1
        rw [h2]
        decide +kernel
      | passThrough _ h => cases h
    · exact absurd rfl h

/-- The two components are connected, the ports being given in either order. -/
example : ∃ ps' k, createConnector sample.packages ["Swcs", "System"] system (.str "S/Out") (.str "/R/In") =
      (ps', .ok k) ∧ elemName k = some "S_Out_R_In" ∧
    ∃ ps'', createConnector sample.packages ["Swcs", "System"] system (.str "R/In") (.str "S/Out") =
      (ps'', .ok k) :=
  ⟨_, _, rfl, rfl, _, rfl⟩

/-- A port of a component and the port of the composition. -/
example : ∃ ps' k, createConnector sample.packages ["Swcs", "System"] system (.str "R/In") (.str "Outside") =
    (ps', .ok k) ∧ classOf k = some .DelegationSwConnector ∧ elemName k = some "Outside_R_In" :=
  ⟨_, _, rfl, rfl, rfl⟩

end Verif.Props.CodecConnect
