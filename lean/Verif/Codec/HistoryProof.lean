import Verif.Codec.HistorySpec
import Verif.Codec.HistoryPart
import Verif.Codec.NormWf
import Verif.Codec.MakeProof
import Verif.Props.CodecConnect
/-
Lemmas for C69: the calls keep documents well-formed, and go together with saving and loading.
-/
set_option linter.unusedSimpArgs false
set_option linter.unusedVariables false
namespace Verif.Codec.History
open Verif.Py Verif.Ref Verif.Codec Verif.Codec.Spec Verif.Codec.Find Verif.Codec.FindSpec Verif.Codec.Connect
open Verif.Codec.HistorySpec Verif.Codec.ConnectSpec Verif.Codec.Older.Spec Verif.Pkg.Spec Verif.Props.CodecConnect
open Verif.Codec.TypeHeader (attr refOf locate locatePkgs Place get_norm kept_list normPlace locatePkgs_norm There
  locatePkgs_there)

/-! ### Written and read -/

mutual
theorem wfPkg_norm : ∀ p : Pkg, WellFormedPkg p → WellFormedPkg (normPkg p)
  | .mk h es ps, hw => by
    simp only [WellFormedPkg] at hw
    obtain ⟨h1, h2, h3, h4⟩ := hw
    simp only [normPkg, WellFormedPkg]
    refine ⟨?_, ?_, ?_, wfPkgs_norm ps h4⟩
    · have := Again.wf_norm h1
      simpa [normVal] using this
    · intro v hv
      obtain ⟨u, hu, rfl⟩ := List.mem_map.1 hv
      obtain ⟨c, hc, hw⟩ := h2 u hu
      exact ⟨c, hc, Again.wf_norm hw⟩
    · have e1 : (es.map (normVal tables false)).map elemName = es.map elemName := by
        rw [List.map_map]
        exact List.map_congr_left fun v _ => elemName_norm _ _
      rw [e1, names_norm ps]
      exact h3
theorem wfPkgs_norm : ∀ ps : List Pkg, WellFormedPkgs ps → WellFormedPkgs (normPkgs ps)
  | [], _ => trivial
  | p :: ps, hw => by
    simp only [WellFormedPkgs] at hw
    simp only [normPkgs, WellFormedPkgs]
    exact ⟨wfPkg_norm p hw.1, wfPkgs_norm ps hw.2⟩
theorem names_norm : ∀ ps : List Pkg, (normPkgs ps).map Pkg.name = ps.map Pkg.name
  | [] => rfl
  | p :: ps => by
    simp only [normPkgs, List.map_cons, name_norm, names_norm ps]
end

theorem area_kept (c : Cls) : kept? c "exclusive_area" = true := by
  have h : ∀ n < 186, kept? (Cls.ofNat n) "exclusive_area" = true := by decide +kernel
  have := h c.ctorIdx (by cases c <;> decide)
  rwa [Cls.ofNat_ctorIdx] at this

theorem named_norm (b : Bool) (v : Val Cls) (h : Older.Spec.named v = true) :
    Older.Spec.named (normVal tables b v) = true := by
  cases v with
  | obj c fs =>
    simp only [normVal, Older.Spec.named] at h ⊢
    rw [get_norm c _ (area_kept c)]
    cases hd : dictGet fs "exclusive_area" with
    | none => rw [hd] at h; cases h
    | some x =>
      rw [hd] at h
      cases x <;> simp only [Bool.false_eq_true] at h
      rfl
  | _ => cases h

theorem allNamed_norm (s : List (Field Cls)) (k : String) (b : Bool) (v : Val Cls) (h : allNamed v = true) :
    allNamed (cutAt s k (normVal tables b v)) = true := by
  have hn : allNamed (normVal tables b v) = true := by
    cases v with
    | list vs =>
      simp only [normVal, allNamed, normList_map, List.all_eq_true] at h ⊢
      intro x hx
      obtain ⟨u, hu, rfl⟩ := List.mem_map.1 hx
      exact named_norm b u (h u hu)
    | _ => simp [normVal, allNamed]
  unfold cutAt
  split
  · unfold Field.cut
    split
    · rename_i he
      rw [he] at hn
      simp only [allNamed, List.all_cons, Bool.and_eq_true] at hn
      simp [allNamed, hn.1]
    · exact hn
  · exact hn

theorem areas_cut (s : List (Field Cls)) (k : String) {v : Val Cls} (h : areasNamed v = true) :
    areasNamed (cutAt s k v) = true := by
  unfold cutAt
  split
  · unfold Field.cut
    split
    · simp only [areasNamed, areasNamedList, Bool.and_eq_true] at h ⊢
      exact ⟨h.1, trivial⟩
    · exact h
  · exact h

mutual
theorem areas_norm (b : Bool) : ∀ v : Val Cls, areasNamed v = true → areasNamed (normVal tables b v) = true
  | .list vs, h => by
    simp only [normVal, areasNamed] at h ⊢
    exact areas_normList b vs h
  | .obj c fs, h => by
    simp only [normVal, areasNamed] at h ⊢
    exact areas_normFields c fs h
  | .num _, _ => by simp [normVal, areasNamed]
  | .limit _ _, _ => by simp [normVal, areasNamed]
  | .str _, _ => by simp [normVal, areasNamed]
  | .bool _, _ => by simp [normVal, areasNamed]
  | .numval _, _ => by simp [normVal, areasNamed]
  | .enum _, _ => by simp [normVal, areasNamed]
  | .ref _, _ => by simp [normVal, areasNamed]
theorem areas_normList (b : Bool) : ∀ vs : List (Val Cls), areasNamedList vs = true →
    areasNamedList (normList tables b vs) = true
  | [], _ => rfl
  | v :: vs, h => by
    simp only [areasNamedList, Bool.and_eq_true] at h
    rw [normList, areasNamedList, areas_norm b v h.1, areas_normList b vs h.2]
    rfl
theorem areas_normFields (c : Cls) : ∀ fs : List (String × Val Cls), areasNamedFields c fs = true →
    areasNamedFields c (normFields tables c fs) = true
  | [], _ => rfl
  | (k, v) :: fs, h => by
    simp only [areasNamedFields, Bool.and_eq_true] at h
    rw [normFields]
    split
    · exact areas_normFields c fs h.2
    · simp only [areasNamedFields, Bool.and_eq_true]
      refine ⟨?_, areas_normFields c fs h.2⟩
      have h1 := h.1
      by_cases hk : c = .RunnableEntity ∧ (k = "can_enter_leave" ∨ k = "runs_insides")
      · rw [if_pos hk] at h1 ⊢
        exact allNamed_norm _ _ _ v h1
      · rw [if_neg hk] at h1 ⊢
        exact areas_cut _ _ (areas_norm _ v h1)
end

mutual
theorem areasPkg_norm : ∀ p : Pkg, areasNamedPkg p = true → areasNamedPkg (normPkg p) = true
  | .mk h es ps, hw => by
    simp only [areasNamedPkg, Bool.and_eq_true, List.all_eq_true] at hw
    simp only [normPkg, areasNamedPkg, Bool.and_eq_true, List.all_eq_true]
    refine ⟨⟨?_, ?_⟩, areasPkgs_norm ps hw.2⟩
    · simpa [normVal] using areas_norm false _ hw.1.1
    · intro v hv
      obtain ⟨u, hu, rfl⟩ := List.mem_map.1 hv
      exact areas_norm false u (hw.1.2 u hu)
theorem areasPkgs_norm : ∀ ps : List Pkg, areasNamedPkgs ps = true → areasNamedPkgs (normPkgs ps) = true
  | [], _ => rfl
  | p :: ps, h => by
    simp only [areasNamedPkgs, Bool.and_eq_true] at h
    rw [normPkgs, areasNamedPkgs, areasPkg_norm p h.1, areasPkgs_norm ps h.2]
    rfl
end

theorem normPkgs_map (ps : List Pkg) : normPkgs ps = ps.map normPkg := by
  induction ps with
  | nil => rfl
  | cons p ps ih => rw [normPkgs, List.map_cons, ih]

/-! ### Changes go together with writing and reading -/

theorem change_norm {f g : Val Cls → Val Cls}
    (h : ∀ x, normVal tables false (f x) = g (normVal tables false x)) :
    ∀ (way : List String) (ps : List Pkg), normPkgs (change f way ps) = change g way (normPkgs ps)
  | [], ps => by rw [change_nil, change_nil]
  | n :: rest, ps => by
    rw [change, change, normPkgs_map, normPkgs_map, List.map_map, List.map_map]
    refine List.map_congr_left fun p _ => ?_
    cases p with
    | mk hd es qs =>
      simp only [Function.comp_apply]
      have hname : (normPkg (.mk hd es qs)).name = (Pkg.mk hd es qs).name := name_norm _
      simp only [normPkg] at hname ⊢
      rw [hname]
      by_cases hn : (Pkg.mk hd es qs).name = some n
      · rw [if_pos hn, if_pos hn, normPkg, change_norm h rest qs]
        congr 1
        cases rest with
        | nil => rfl
        | cons m rest =>
          cases rest with
          | nil =>
            simp only [List.map_map]
            refine List.map_congr_left fun v _ => ?_
            simp only [Function.comp_apply, elemName_norm]
            split
            · exact h v
            · rfl
          | cons _ _ => rfl
      · rw [if_neg hn, if_neg hn, normPkg]

theorem connectors_kept (c : Cls) : kept? c "connectors" = true := read_kept c "connectors" (by simp)

theorem fields_append (c : Cls) (a b : List (String × Val Cls)) :
    normFields tables c (a ++ b) = normFields tables c a ++ normFields tables c b := by
  simp [normFields_map]

theorem fields_filter (c : Cls) (q : String → Bool) (fs : List (String × Val Cls)) :
    normFields tables c (fs.filter fun f => q f.1) = (normFields tables c fs).filter fun f => q f.1 := by
  simp only [normFields_map, List.filter_map, List.filter_filter, Function.comp_def, Bool.and_comm]

theorem addTo_norm (k : Swc.Connector) (v : Val Cls) :
    normVal tables false (addTo (connectorObj k) v) = addTo (connectorObj k) (normVal tables false v) := by
  cases v with
  | obj c fs =>
    have hl : "connectors" ∉ tables.lost c := by
      have := connectors_kept c
      simp only [kept?, Bool.and_eq_true, decide_eq_true_eq] at this
      exact this.1
    simp only [addTo, normVal]
    congr 1
    rw [fields_append, fields_filter c (fun a => decide (a ≠ "connectors"))]
    congr 1
    simp only [normFields, if_neg hl]
    rw [cutAt_kept (connectors_kept c), kept_list (connectors_kept c)]
    simp only [normVal, normList_map, List.map_append, List.map_cons, List.map_nil, connector_norm]
  | _ => simp [addTo, normVal]

theorem atPkg_norm {f g : Pkg → Pkg} (h : ∀ p, normPkg (f p) = g (normPkg p)) :
    ∀ (way : List String) (ps : List Pkg), normPkgs (atPkg f way ps) = atPkg g way (normPkgs ps)
  | [], ps => by rw [atPkg, atPkg]
  | n :: rest, ps => by
    rw [atPkg, atPkg, normPkgs_map, normPkgs_map, List.map_map, List.map_map]
    refine List.map_congr_left fun p _ => ?_
    cases p with
    | mk hd es qs =>
      simp only [Function.comp_apply]
      have hname : (normPkg (.mk hd es qs)).name = (Pkg.mk hd es qs).name := name_norm _
      have hh := h (.mk hd es qs)
      simp only [normPkg] at hname hh ⊢
      rw [hname]
      by_cases hn : (Pkg.mk hd es qs).name = some n
      · rw [if_pos hn, if_pos hn]
        cases rest with
        | nil => exact hh
        | cons m rest => simp only [normPkg, atPkg_norm h (m :: rest) qs]
      · rw [if_neg hn, if_neg hn, normPkg]

def normThing : Thing → Thing
  | .element v => .element (normVal tables false v)
  | .package p => .package (normPkg p)

theorem thing_name (x : Thing) : (normThing x).name = x.name := by
  cases x with
  | element v => exact elemName_norm _ _
  | package p => exact name_norm p

theorem in_norm (p : Pkg) : names (normPkg p) = names p := by
  cases p with
  | mk h es ps =>
    simp only [normPkg, names, names_norm, List.map_map]
    congr 1
    exact List.map_congr_left fun v _ => elemName_norm _ _

theorem put_norm (x : Thing) (p : Pkg) : normPkg (put x p) = put (normThing x) (normPkg p) := by
  have hi := in_norm p
  cases p with
  | mk h es ps =>
    simp only [normPkg, put] at hi ⊢
    rw [thing_name, hi]
    split
    · rw [normPkg]
    · cases x with
      | element v => simp [normPkg, normThing]
      | package p => simp [normPkg, normThing, normPkgs_map]

theorem norm_thing (x : Thing) : normThing (normThing x) = normThing x := by
  cases x with
  | element v => simp [normThing, Load.norm_norm]
  | package p => simp [normThing, Load.norm_normPkg]

theorem locate_norm (ps : List Pkg) (r : String) :
    locate (normPkgs ps) r = (locate ps r).map fun r => r.map normPlace := locatePkgs_norm [] ps _

/-- Every call does the same to a document and to what is left of it after saving and loading. -/
theorem call_norm (ps : List Pkg) (c : Call) : (call (normPkgs ps) c).2 = (call ps c).2 ∧
    normPkgs (call (normPkgs ps) c).1 = normPkgs (call ps c).1 := by
  cases c with
  | add ref x =>
    simp only [call, locate_norm]
    cases locate ps ref with
    | error e => exact ⟨rfl, Load.norm_normPkgs ps⟩
    | ok y =>
      cases y with
      | none => exact ⟨rfl, Load.norm_normPkgs ps⟩
      | some y =>
        cases y with
        | pkg way p =>
          simp only [Except.map, Option.map_some, normPlace, in_norm]
          split
          · exact ⟨rfl, Load.norm_normPkgs ps⟩
          · refine ⟨rfl, ?_⟩
            rw [atPkg_norm (put_norm x), atPkg_norm (put_norm x), Load.norm_normPkgs]
        | element way v => exact ⟨rfl, Load.norm_normPkgs ps⟩
        | part way v x => exact ⟨rfl, Load.norm_normPkgs ps⟩
  | addRoot p =>
    simp only [call, names_norm]
    split
    · exact ⟨rfl, Load.norm_normPkgs ps⟩
    · refine ⟨rfl, ?_⟩
      have := Load.norm_normPkgs ps
      rw [normPkgs_map] at this
      simp only [normPkgs_map, List.map_append] at this ⊢
      rw [this]
  | connect ref a b =>
    simp only [call, locate_norm]
    cases locate ps ref with
    | error e => exact ⟨rfl, Load.norm_normPkgs ps⟩
    | ok y =>
      cases y with
      | none => exact ⟨rfl, Load.norm_normPkgs ps⟩
      | some y =>
        cases y with
        | pkg way p => exact ⟨rfl, Load.norm_normPkgs ps⟩
        | part way v x => exact ⟨rfl, Load.norm_normPkgs ps⟩
        | element way v =>
          cases v with
          | obj c fs =>
            by_cases hc : c = .CompositionSwComponentType
            · subst hc
              have hcomp := comp_norm false way (.obj .CompositionSwComponentType fs)
              simp only [normVal] at hcomp
              simp only [Except.map, Option.map_some, normPlace, normVal, createConnector, env_norm, hcomp]
              cases (Swc.createConnector (envOf ps) (compOf way (.obj .CompositionSwComponentType fs)) a b).2 with
              | error e => exact ⟨rfl, Load.norm_normPkgs ps⟩
              | ok k =>
                refine ⟨rfl, ?_⟩
                simp only
                rw [change_norm (addTo_norm k), change_norm (addTo_norm k), Load.norm_normPkgs]
            · simp only [Except.map, Option.map_some, normPlace, normVal]
              cases c <;> first | exact absurd rfl hc | exact ⟨rfl, Load.norm_normPkgs ps⟩
          | _ =>
            simp only [Except.map, Option.map_some, normPlace, normVal]
            exact ⟨trivial, Load.norm_normPkgs ps⟩
  | part ref m x =>
    simp only [call, locate_norm]
    cases locate ps ref with
    | error e => exact ⟨rfl, Load.norm_normPkgs ps⟩
    | ok y =>
      cases y with
      | none => exact ⟨rfl, Load.norm_normPkgs ps⟩
      | some y =>
        cases y with
        | pkg way p => exact ⟨rfl, Load.norm_normPkgs ps⟩
        | part way v x => exact ⟨rfl, Load.norm_normPkgs ps⟩
        | element way v =>
          cases v with
          | obj c fs =>
            simp only [Except.map, Option.map_some, normPlace, normVal]
            cases hx : choose c m x with
            | error e => exact ⟨rfl, Load.norm_normPkgs ps⟩
            | ok p =>
              obtain ⟨a, y⟩ := p
              refine ⟨rfl, ?_⟩
              simp only
              have hn : ∀ v, normVal tables false (withPart a y v) =
                  (fun u => normVal tables false (withPart a y u)) (normVal tables false v) :=
                fun v => (part_norm (chosen_kept hx) v).symm
              rw [change_norm (g := fun u => normVal tables false (withPart a y u)) hn,
                change_norm (g := fun u => normVal tables false (withPart a y u)) hn, Load.norm_normPkgs]
          | _ => exact ⟨rfl, Load.norm_normPkgs ps⟩
  | make ref =>
    have h1 := Make.make_norm ps ref
    simp only [call]
    rw [h1]
    cases hm : Make.make ps ref with
    | mk ps' r =>
      cases r with
      | error e => exact ⟨rfl, Load.norm_normPkgs ps'⟩
      | ok p =>
        refine ⟨?_, Load.norm_normPkgs ps'⟩
        simp only [Except.map, name_norm]

/-! ### Documents that can be written -/

theorem atPkg_keeps {f : Pkg → Pkg} (hf : ∀ p, WellFormedPkg p → WellFormedPkg (f p))
    (hn : ∀ p, (f p).name = p.name) : ∀ (way : List String) (ps : List Pkg), WellFormedPkgs ps →
    WellFormedPkgs (atPkg f way ps) ∧ (atPkg f way ps).map Pkg.name = ps.map Pkg.name
  | [], ps, h => by rw [atPkg]; exact ⟨h, rfl⟩
  | n :: rest, ps, h => by
    have key : ∀ p, WellFormedPkg p → WellFormedPkg (match p with
        | .mk h es qs =>
          if (Pkg.mk h es qs).name = some n then
            match rest with
            | [] => f (.mk h es qs)
            | _ => .mk h es (atPkg f rest qs)
          else .mk h es qs) ∧ (match p with
        | .mk h es qs =>
          if (Pkg.mk h es qs).name = some n then
            match rest with
            | [] => f (.mk h es qs)
            | _ => .mk h es (atPkg f rest qs)
          else .mk h es qs).name = p.name := by
      intro p hp
      cases p with
      | mk hd es qs =>
        simp only
        split
        · cases rest with
          | nil => exact ⟨hf _ hp, hn _⟩
          | cons m rest =>
            simp only [WellFormedPkg] at hp ⊢
            obtain ⟨h1, h2, h3, h4⟩ := hp
            obtain ⟨g1, g2⟩ := atPkg_keeps hf hn (m :: rest) qs h4
            exact ⟨⟨h1, h2, by rw [g2]; exact h3, g1⟩, rfl⟩
        · exact ⟨hp, rfl⟩
    rw [atPkg, Load.wellFormedPkgs_iff]
    rw [Load.wellFormedPkgs_iff] at h
    constructor
    · intro q hq
      obtain ⟨p, hp, rfl⟩ := List.mem_map.1 hq
      exact (key p (h p hp)).1
    · rw [List.map_map]
      exact List.map_congr_left fun p hp => (key p (h p hp)).2

theorem areas_iff {ps : List Pkg} : areasNamedPkgs ps = true ↔ ∀ p ∈ ps, areasNamedPkg p = true := by
  induction ps with
  | nil => simp [areasNamedPkgs]
  | cons p ps ih => simp [areasNamedPkgs, ih]

theorem atPkg_areas {f : Pkg → Pkg} (hf : ∀ p, areasNamedPkg p = true → areasNamedPkg (f p) = true) :
    ∀ (way : List String) (ps : List Pkg), areasNamedPkgs ps = true → areasNamedPkgs (atPkg f way ps) = true
  | [], ps, h => by rw [atPkg]; exact h
  | n :: rest, ps, h => by
    rw [atPkg, areas_iff]
    rw [areas_iff] at h
    intro q hq
    obtain ⟨p, hp, rfl⟩ := List.mem_map.1 hq
    have h := h p hp
    cases p with
    | mk hd es qs =>
      simp only
      split
      · cases rest with
        | nil => exact hf _ h
        | cons m rest =>
          simp only [areasNamedPkg, Bool.and_eq_true] at h ⊢
          exact ⟨h.1, atPkg_areas hf (m :: rest) qs h.2⟩
      · exact h

theorem put_name (x : Thing) (p : Pkg) : (put x p).name = p.name := by
  cases p with
  | mk h es ps =>
    simp only [put]
    split
    · rfl
    · cases x <;> rfl

theorem put_wf {x : Thing} (hx : ThingOk x) {p : Pkg} (h : WellFormedPkg p) : WellFormedPkg (put x p) := by
  cases p with
  | mk hd es ps =>
    simp only [put]
    split
    · exact h
    · rename_i hn
      simp only [WellFormedPkg] at h
      obtain ⟨h1, h2, h3, h4⟩ := h
      have hnd : (x.name :: (es.map elemName ++ ps.map Pkg.name)).Nodup := List.nodup_cons.2 ⟨hn, h3⟩
      cases x with
      | element v =>
        simp only [WellFormedPkg]
        refine ⟨h1, ?_, ?_, h4⟩
        · intro u hu
          rcases List.mem_append.1 hu with hu | hu
          · exact h2 u hu
          · rw [List.mem_singleton.1 hu]; exact hx
        · refine (List.Perm.nodup_iff ?_).2 hnd
          rw [List.map_append, List.append_assoc]
          exact List.perm_middle
      | package q =>
        simp only [WellFormedPkg]
        refine ⟨h1, h2, ?_, wfs_append.2 ⟨h4, by simp only [WellFormedPkgs]; exact ⟨hx, trivial⟩⟩⟩
        refine (List.Perm.nodup_iff ?_).2 hnd
        rw [List.map_append, ← List.append_assoc]
        exact List.perm_append_singleton _ _

theorem put_areas {x : Thing} (hx : thingAreas x = true) {p : Pkg} (h : areasNamedPkg p = true) :
    areasNamedPkg (put x p) = true := by
  cases p with
  | mk hd es ps =>
    simp only [put]
    split
    · exact h
    · simp only [areasNamedPkg, Bool.and_eq_true] at h
      cases x with
      | element v =>
        simp only [thingAreas] at hx
        simp only [areasNamedPkg, Bool.and_eq_true, List.all_append, List.all_cons, List.all_nil, hx]
        exact ⟨⟨h.1.1, h.1.2, trivial, trivial⟩, h.2⟩
      | package q =>
        simp only [thingAreas] at hx
        simp only [areasNamedPkg, Bool.and_eq_true, areas_append, areasNamedPkgs, hx]
        exact ⟨h.1, h.2, trivial, trivial⟩

/-- A document that can be written. -/
structure Good (doc : Document) : Prop where
  wf : WellFormedPkgs doc.packages
  names : (doc.packages.map Pkg.name).Nodup
  areas : doc.schemaVersion < 50 → areasNamedPkgs doc.packages = true

theorem connect_good {doc : Document} (h : Good doc) {way : List String} {fs : List (String × Val Cls)}
    (hat : ElementAt doc.packages way (.obj .CompositionSwComponentType fs)) (hg : ∀ n ∈ way, GoodName n)
    {a b : PyVal} {ps' : List Pkg} {r : Except PyErr (Val Cls)}
    (hk : createConnector doc.packages way (.obj .CompositionSwComponentType fs) a b = (ps', r)) :
    Good ⟨doc.schemaVersion, ps'⟩ := by
  unfold createConnector at hk
  cases hr : Swc.createConnector (envOf doc.packages) (compOf way (.obj .CompositionSwComponentType fs)) a b with
  | mk c' res =>
    rw [hr] at hk
    cases res with
    | error e =>
      simp only [Prod.mk.injEq] at hk
      rw [← hk.1]
      exact h
    | ok k0 =>
      simp only [Prod.mk.injEq] at hk
      obtain ⟨rfl, -⟩ := hk
      obtain ⟨s1, s2, e1, e2, rfl, rfl, n1, n2, hwant, -, -⟩ := Swc.createConnector_ok hr
      have hj := Swc.wanted_joins hwant
      obtain ⟨d, -, fd⟩ := names_fit h.wf hat ⟨fs, rfl⟩ hg n1
      obtain ⟨e, -, fe⟩ := names_fit h.wf hat ⟨fs, rfl⟩ hg n2
      obtain ⟨-, -, ck, hck, hkw⟩ := connector_wf h.wf hat fd fe hj
      obtain ⟨c0, gs, hv1, -, hwf⟩ := elem_wf hat h.wf
      cases hv1
      have hex := exchanged hat (addTo (connectorObj k0)) h.wf h.names
      have hname := name_add (connectorObj k0) (.obj .CompositionSwComponentType fs)
      exact ⟨ex_wf hex ⟨_, rfl, add_wf hwf hck hkw⟩ hname h.wf, (ex_names hex).symm ▸ h.names,
        fun hlt => ex_areas hex (areas_add k0 fs) (h.areas hlt)⟩

theorem locate_there {ps : List Pkg} {r : String} {x : Place} (h : WellFormedPkgs ps)
    (hl : locate ps r = .ok (some x)) : There ps [] x :=
  locatePkgs_there [] ps _ x h (by simpa using not_mem_partL_fst '/' (stripLead '/' r.toList)) hl

theorem call_make (ps : List Pkg) (ref : String) : (call ps (.make ref)).1 = (Make.make ps ref).1 := by
  simp only [call]
  cases Make.make ps ref with
  | mk ps' r => cases r <;> rfl

theorem call_good {doc : Document} (h : Good doc) {c : Call} (hc : CallOk doc.schemaVersion c) :
    Good ⟨doc.schemaVersion, (call doc.packages c).1⟩ := by
  cases c with
  | add ref x =>
    simp only [call]
    split
    · exact h
    · split
      · exact h
      · obtain ⟨g1, g2⟩ := atPkg_keeps (fun p hp => put_wf hc.1 hp) (put_name x) _ _ h.wf
        exact ⟨g1, by simp only [g2]; exact h.names,
          fun hlt => atPkg_areas (fun p hp => put_areas (hc.2 hlt) hp) _ _ (h.areas hlt)⟩
    · exact h
  | addRoot p =>
    simp only [call]
    split
    · exact h
    · rename_i hn
      refine ⟨wfs_append.2 ⟨h.wf, by simp only [WellFormedPkgs]; exact ⟨hc.1, trivial⟩⟩, ?_, ?_⟩
      · rw [List.map_append]
        exact (List.Perm.nodup_iff (List.perm_append_singleton _ _)).2 (List.nodup_cons.2 ⟨hn, h.names⟩)
      · intro hlt
        simp only [areas_append, areasNamedPkgs, Bool.and_eq_true]
        exact ⟨h.areas hlt, hc.2 hlt, trivial⟩
  | connect ref a b =>
    simp only [call]
    split
    · exact h
    · rename_i way fs hl
      obtain ⟨ns, hw, hat, hg⟩ := locate_there h.wf hl
      simp only [List.nil_append] at hw
      subst hw
      split <;> exact connect_good h hat hg ‹_›
    · exact h
  | part ref m x =>
    simp only [call]
    split
    · exact h
    · rename_i way c fs hl
      obtain ⟨ns, hw, hat, hg⟩ := locate_there h.wf hl
      simp only [List.nil_append] at hw
      subst hw
      cases hx : choose c m x with
      | error e => exact h
      | ok p =>
        obtain ⟨a, y⟩ := p
        obtain ⟨c0, gs, hv1, har, hwf⟩ := elem_wf hat h.wf
        cases hv1
        have hex := exchanged hat (withPart a y) h.wf h.names
        refine ⟨ex_wf hex ⟨_, har, part_wf har hwf hx hc.1⟩ (part_name har hx) h.wf, (ex_names hex).symm ▸ h.names,
          fun hlt => ex_areas hex (part_areas (row har).2.2.1 ?_) (h.areas hlt)⟩
        rw [(chosen har hx).1]
        exact hc.2 hlt
    · exact h
  | make ref =>
    obtain ⟨way, h1, h2, h3⟩ := hc
    obtain ⟨g1, g2, g3⟩ := Make.make_good h.wf h.names h1 h2 ref h3
    rw [call_make]
    exact ⟨g1, g2, fun hlt => g3 (h.areas hlt)⟩

/-! ### Nothing is lost -/

theorem kept_refl (v : Val Cls) : Kept v v := ⟨rfl, fun _ => .inl rfl⟩

theorem kept_trans {u v w : Val Cls} (h1 : Kept u v) (h2 : Kept v w) : Kept u w := by
  refine ⟨h2.1.trans h1.1, fun a => ?_⟩
  rcases h1.2 a with e1 | ⟨old, new, e1, e2⟩
  · rw [← e1]; exact h2.2 a
  · rcases h2.2 a with e3 | ⟨old', new', e3, e4⟩
    · exact .inr ⟨old, new, e1, by rw [e3, e2]⟩
    · rw [e2] at e3
      rcases e3 with e3 | ⟨e3, -⟩
      · cases e3
        exact .inr ⟨old, new ++ new', e1, by rw [e4, List.append_assoc]⟩
      · cases e3

theorem put_elements (x : Thing) (p : Pkg) : ∀ v ∈ p.elements, v ∈ (put x p).elements := by
  intro v hv
  cases p with
  | mk h es ps =>
    simp only [put]
    split
    · exact hv
    · cases x with
      | element u => exact List.mem_append_left _ hv
      | package q => exact hv

theorem put_packages (x : Thing) (p : Pkg) : ∀ q ∈ p.packages, q ∈ (put x p).packages := by
  intro q hq
  cases p with
  | mk h es ps =>
    simp only [put]
    split
    · exact hq
    · cases x with
      | element u => exact hq
      | package q => exact List.mem_append_left _ hq

theorem put_head (x : Thing) (p : Pkg) : (put x p).head = p.head := by
  cases p
  simp only [put]
  split
  · rfl
  · cases x <;> rfl

theorem pkgAt_mono {ps qs : List Pkg} (h : ∀ p ∈ ps, p ∈ qs) {way : List String} {p : Pkg}
    (hp : PackageAt ps way p) : PackageAt qs way p := by
  cases hp with
  | here h1 h2 => exact .here (h _ h1) h2
  | inside h1 h2 h3 => exact .inside (h _ h1) h2 h3

/-- Every package is still there, with its elements. -/
theorem at_keeps (x : Thing) {ps : List Pkg} {way : List String} {p : Pkg} (hp : PackageAt ps way p) :
    ∀ way', ∃ p', PackageAt (atPkg (put x) way' ps) way p' ∧ (∀ v ∈ p.elements, v ∈ p'.elements) ∧
      p'.head = p.head := by
  induction hp with
  | @here ps p n h1 h2 =>
    intro way'
    cases way' with
    | nil => rw [atPkg]; exact ⟨p, .here h1 h2, fun _ h => h, rfl⟩
    | cons m rest =>
      rw [atPkg]
      have hm := List.mem_map_of_mem (f := fun p => match p with
        | Pkg.mk h es qs =>
          if (Pkg.mk h es qs).name = some m then
            match rest with
            | [] => put x (.mk h es qs)
            | _ => .mk h es (atPkg (put x) rest qs)
          else .mk h es qs) h1
      cases p with
      | mk h es qs =>
        simp only at hm
        by_cases hn : (Pkg.mk h es qs).name = some m
        · rw [if_pos hn] at hm
          cases rest with
          | nil => exact ⟨_, .here hm ((put_name _ _).trans h2), put_elements x _, put_head x _⟩
          | cons k rest => exact ⟨_, .here hm h2, fun _ h => h, rfl⟩
        · rw [if_neg hn] at hm
          exact ⟨_, .here hm h2, fun _ h => h, rfl⟩
  | @inside ps p q n way h1 h2 h3 ih =>
    intro way'
    cases way' with
    | nil => rw [atPkg]; exact ⟨q, .inside h1 h2 h3, fun _ h => h, rfl⟩
    | cons m rest =>
      rw [atPkg]
      have hm := List.mem_map_of_mem (f := fun p => match p with
        | Pkg.mk h es qs =>
          if (Pkg.mk h es qs).name = some m then
            match rest with
            | [] => put x (.mk h es qs)
            | _ => .mk h es (atPkg (put x) rest qs)
          else .mk h es qs) h1
      cases p with
      | mk h es qs =>
        simp only at hm
        by_cases hn : (Pkg.mk h es qs).name = some m
        · rw [if_pos hn] at hm
          cases rest with
          | nil =>
            exact ⟨q, .inside hm ((put_name _ _).trans h2) (pkgAt_mono (put_packages x _) h3), fun _ h => h, rfl⟩
          | cons k rest =>
            obtain ⟨p', g1, g2⟩ := ih (k :: rest)
            exact ⟨p', .inside hm h2 g1, g2⟩
        · rw [if_neg hn] at hm
          exact ⟨q, .inside hm h2 h3, fun _ h => h, rfl⟩

/-- The package has been changed. -/
theorem at_changed (x : Thing) {ps : List Pkg} {way : List String} {p : Pkg} (hp : PackageAt ps way p) :
    PackageAt (atPkg (put x) way ps) way (put x p) := by
  induction hp with
  | @here ps p n h1 h2 =>
    rw [atPkg]
    refine .here (List.mem_map.2 ⟨p, h1, ?_⟩) ((put_name _ _).trans h2)
    cases p with
    | mk h es qs => simp only [if_pos h2]
  | @inside ps p q n way h1 h2 h3 ih =>
    rw [atPkg]
    cases p with
    | mk h es qs =>
      cases way with
      | nil => cases h3
      | cons m rest =>
        exact .inside (p := .mk h es (atPkg (put x) (m :: rest) qs))
          (List.mem_map.2 ⟨_, h1, by simp only [if_pos h2]⟩) h2 ih

theorem elemAt_mono {ps qs : List Pkg} (h : ∀ p ∈ ps, p ∈ qs) {way : List String} {v : Val Cls}
    (hv : ElementAt ps way v) : ElementAt qs way v := by
  cases hv with
  | mk h1 h2 h3 => exact .mk (pkgAt_mono h h1) h2 h3

theorem call_keeps {doc : Document} (h : Good doc) (c : Call) {way : List String} {v : Val Cls}
    (hv : ElementAt doc.packages way v) :
    ∃ v', ElementAt (call doc.packages c).1 way v' ∧ Kept v v' := by
  cases c with
  | add ref x =>
    simp only [call]
    split
    · exact ⟨v, hv, kept_refl v⟩
    · split
      · exact ⟨v, hv, kept_refl v⟩
      · cases hv with
        | mk h1 h2 h3 =>
          obtain ⟨p', g1, g2, -⟩ := at_keeps x h1 _
          exact ⟨v, .mk g1 (g2 v h2) h3, kept_refl v⟩
    · exact ⟨v, hv, kept_refl v⟩
  | addRoot p =>
    simp only [call]
    split
    · exact ⟨v, hv, kept_refl v⟩
    · exact ⟨v, elemAt_mono (fun p hp => List.mem_append_left _ hp) hv, kept_refl v⟩
  | connect ref a b =>
    simp only [call]
    split
    · exact ⟨v, hv, kept_refl v⟩
    · rename_i way' fs hl
      obtain ⟨ns, hw, hat, hg⟩ := locate_there h.wf hl
      simp only [List.nil_append] at hw
      subst hw
      simp only [createConnector]
      cases (Swc.createConnector (envOf doc.packages) (compOf way' (.obj .CompositionSwComponentType fs)) a b).2 with
      | error e => exact ⟨v, hv, kept_refl v⟩
      | ok k =>
        simp only
        have hex := exchanged hat (addTo (connectorObj k)) h.wf h.names
        obtain ⟨t', t1, t2⟩ := ex_element hex (name_add _ _) hv
        rcases t2 with rfl | ⟨rfl, rfl⟩
        · exact ⟨_, t1, kept_refl _⟩
        · refine ⟨_, t1, ?_⟩
          obtain ⟨x1, x2, x3⟩ := extended_add (connectorObj k) .CompositionSwComponentType fs
          obtain ⟨c0, gs, hv1, har, hwf⟩ := elem_wf hat h.wf
          cases hv1
          obtain ⟨w1, -⟩ := hwf
          simp only [hasS, Bool.and_eq_true, decide_eq_true_eq] at w1
          obtain ⟨f, f1, f2⟩ : ∃ f, fieldOf (tables.schema .CompositionSwComponentType) "connectors" = some f ∧
              f.shape = .many none := ⟨_, rfl, rfl⟩
          refine ⟨x1, fun a => ?_⟩
          by_cases ha : a = "connectors"
          · subst ha
            refine .inr ⟨_, _, ?_, x2⟩
            simp only [field, ← dictGet_lookup]
            rcases list_or_none w1.2 f1 f2 with hl | ⟨l, hl, -⟩
            · exact .inr ⟨hl, (members_get _).1 hl⟩
            · rw [(members_get _).2 l hl]; exact .inl hl
          · exact .inl (x3 a ha)
    · exact ⟨v, hv, kept_refl v⟩
  | part ref m x =>
    simp only [call]
    split
    · exact ⟨v, hv, kept_refl v⟩
    · rename_i way' c fs hl
      obtain ⟨ns, hw, hat, hg⟩ := locate_there h.wf hl
      simp only [List.nil_append] at hw
      subst hw
      cases hx : choose c m x with
      | error e => exact ⟨v, hv, kept_refl v⟩
      | ok p =>
        obtain ⟨a, y⟩ := p
        obtain ⟨c0, gs, hv1, har, hwf⟩ := elem_wf hat h.wf
        cases hv1
        have hex := exchanged hat (withPart a y) h.wf h.names
        obtain ⟨t', t1, t2⟩ := ex_element hex (part_name har hx) hv
        rcases t2 with rfl | ⟨rfl, rfl⟩
        · exact ⟨_, t1, kept_refl _⟩
        · exact ⟨_, t1, part_field har hwf hx⟩
    · exact ⟨v, hv, kept_refl v⟩
  | make ref =>
    rw [call_make]
    exact ⟨v, (Make.only_elements (Make.make_only h.wf h.names ref) _ _).2 hv, kept_refl v⟩

theorem ex_head {u w : Val Cls} {way : List String} {ps ps' : List Pkg} (h : Exchanged u w way ps ps') :
    ∀ {way' : List String} {p : Pkg}, PackageAt ps way' p → ∃ p', PackageAt ps' way' p' ∧ p'.head = p.head := by
  induction h with
  | @element n m h b a qs f r h1 h2 =>
    intro way' p hp
    cases hp with
    | here hq hn =>
      simp only [List.mem_append, List.mem_cons] at hq
      rcases hq with hq | rfl | hq
      · exact ⟨_, .here (by simp [hq]) hn, rfl⟩
      · exact ⟨_, .here (p := .mk h (b ++ w :: a) qs) (by simp) hn, rfl⟩
      · exact ⟨_, .here (by simp [hq]) hn, rfl⟩
    | inside hq hn hr =>
      simp only [List.mem_append, List.mem_cons] at hq
      rcases hq with hq | rfl | hq
      · exact ⟨_, .inside (by simp [hq]) hn hr, rfl⟩
      · exact ⟨_, .inside (p := .mk h (b ++ w :: a) qs) (by simp) hn hr, rfl⟩
      · exact ⟨_, .inside (by simp [hq]) hn hr, rfl⟩
  | @inside n way h es qs qs' f r h1 h2 ih =>
    intro way' p hp
    cases hp with
    | here hq hn =>
      simp only [List.mem_append, List.mem_cons] at hq
      rcases hq with hq | rfl | hq
      · exact ⟨_, .here (by simp [hq]) hn, rfl⟩
      · exact ⟨_, .here (p := .mk h es qs') (by simp) hn, rfl⟩
      · exact ⟨_, .here (by simp [hq]) hn, rfl⟩
    | inside hq hn hr =>
      simp only [List.mem_append, List.mem_cons] at hq
      rcases hq with hq | rfl | hq
      · exact ⟨_, .inside (by simp [hq]) hn hr, rfl⟩
      · obtain ⟨p', h3, h4⟩ := ih hr
        exact ⟨p', .inside (p := .mk h es qs') (by simp) hn h3, h4⟩
      · exact ⟨_, .inside (by simp [hq]) hn hr, rfl⟩

/-- Every package is still there, with its own attributes. -/
theorem call_packages {doc : Document} (h : Good doc) (c : Call) {way : List String} {p : Pkg}
    (hp : PackageAt doc.packages way p) :
    ∃ p', PackageAt (call doc.packages c).1 way p' ∧ p'.head = p.head := by
  cases c with
  | add ref x =>
    simp only [call]
    split
    · exact ⟨p, hp, rfl⟩
    · split
      · exact ⟨p, hp, rfl⟩
      · obtain ⟨p', g1, -, g2⟩ := at_keeps x hp _
        exact ⟨p', g1, g2⟩
    · exact ⟨p, hp, rfl⟩
  | addRoot q =>
    simp only [call]
    split
    · exact ⟨p, hp, rfl⟩
    · exact ⟨p, pkgAt_mono (fun p hp => List.mem_append_left _ hp) hp, rfl⟩
  | connect ref a b =>
    simp only [call]
    split
    · exact ⟨p, hp, rfl⟩
    · rename_i way' fs hl
      obtain ⟨ns, hw, hat, hg⟩ := locate_there h.wf hl
      simp only [List.nil_append] at hw
      subst hw
      simp only [createConnector]
      cases (Swc.createConnector (envOf doc.packages) (compOf way' (.obj .CompositionSwComponentType fs)) a b).2 with
      | error e => exact ⟨p, hp, rfl⟩
      | ok k => exact ex_head (exchanged hat (addTo (connectorObj k)) h.wf h.names) hp
    · exact ⟨p, hp, rfl⟩
  | part ref m x =>
    simp only [call]
    split
    · exact ⟨p, hp, rfl⟩
    · rename_i way' c fs hl
      obtain ⟨ns, hw, hat, hg⟩ := locate_there h.wf hl
      simp only [List.nil_append] at hw
      subst hw
      cases hx : choose c m x with
      | error e => exact ⟨p, hp, rfl⟩
      | ok y => exact ex_head (exchanged hat (withPart y.1 y.2) h.wf h.names) hp
    · exact ⟨p, hp, rfl⟩
  | make ref =>
    rw [call_make]
    obtain ⟨p', g1, g2⟩ := (Make.make_only h.wf h.names ref).kept _ _ hp
    exact ⟨p', g1, g2.head⟩

/-! ### Texts and places -/

theorem rel_nil {way : List String} (hg : ∀ n ∈ way, GoodName n) (h : (relRef way).toList = []) : way = [] := by
  cases way with
  | nil => rfl
  | cons n rest =>
    exfalso
    cases rest with
    | nil => exact (hg n (by simp)).1 (by simp [relRef] at h; exact h.1)
    | cons m rest =>
      simp [relRef, String.toList_append] at h
      exact (hg n (by simp)).1 h.1

theorem locate_way (way : List String) : (∀ n ∈ way, GoodName n) → way ≠ [] → ∀ (acc : List String)
    (ps : List Pkg) (x : Place),
    locatePkgs acc ps (partL '/' (stripLead '/' (relRef way).toList)) = .ok (some x) →
    (∀ w p, x = .pkg w p → w = acc ++ way) ∧ (∀ w v, x = .element w v → w = acc ++ way) := by
  induction way with
  | nil => intro _ h; exact absurd rfl h
  | cons n rest ih =>
    intro hg _ acc ps x
    rw [rel_cons _ _ (hg n (by simp))]
    have hg' : ∀ m ∈ rest, GoodName m := fun m h => hg m (List.mem_cons_of_mem _ h)
    induction ps with
    | nil => intro h; cases h
    | cons p ps ihp =>
      rw [locatePkgs]
      simp only [String.ofList_toList]
      split
      · split
        · rename_i hne
          cases rest with
          | nil => exact absurd rfl hne
          | cons m rest =>
            cases p with
            | mk h es qs =>
              rw [TypeHeader.locatePkg]
              intro hx
              split at hx
              · rename_i v hv
                rw [rel_cons _ _ (hg' m (by simp))] at hx
                simp only [String.ofList_toList] at hx
                split at hx
                · cases hf : elemFind v (relRef rest).toList with
                  | error e => rw [hf] at hx; cases hx
                  | ok r =>
                    cases r with
                    | none => rw [hf] at hx; cases hx
                    | some y =>
                      rw [hf] at hx
                      cases hx
                      exact ⟨fun w p h => (by cases h), fun w p h => (by cases h)⟩
                · rename_i hr
                  have hr := rel_nil (fun k hk => hg' k (List.mem_cons_of_mem _ hk)) (Decidable.not_not.1 hr)
                  subst hr
                  cases hx
                  exact ⟨fun w p h => (by cases h), fun w p h => (by cases h; simp)⟩
              · have := ih hg' (by simp) (acc ++ [n]) qs x hx
                simpa using this
        · rename_i hr
          have hr := rel_nil hg' (Decidable.not_not.1 hr)
          subst hr
          intro hx
          cases hx
          exact ⟨fun w p h => (by cases h; rfl), fun w p h => (by cases h)⟩
      · exact ihp

end Verif.Codec.History
