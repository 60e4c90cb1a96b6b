import Verif.Codec.FindSpec
import Verif.Codec.PackageRt
import Verif.Pkg.Path
/-
`find` before and after writing and reading.
-/
namespace Verif.Codec.Find
open Verif.Py Verif.Codec Verif.Codec.Spec Verif.Codec.FindSpec Verif.Pkg Verif.Pkg.Spec

/-! ### After reading -/

def normItem : Item → Item
  | .pkg p => .pkg (normPkg p)
  | .obj v => .obj (normVal tables false v)

/-- The list in an attribute that is not lost. -/
def kept? (c : Cls) (a : String) : Bool :=
  decide (a ∉ tables.lost c) &&
    match fieldOf (tables.schema c) a with
    | some f => decide (f.shape ≠ .first)
    | none => true

theorem cutAt_kept {c : Cls} {a : String} (h : kept? c a = true) (v : Val Cls) :
    cutAt (tables.schema c) a v = v := by
  simp only [kept?, Bool.and_eq_true] at h
  unfold cutAt
  cases hf : fieldOf (tables.schema c) a with
  | none => rfl
  | some f =>
    rw [hf] at h
    have h2 := h.2
    simp only [decide_eq_true_eq] at h2
    simp only [Field.cut]
    split
    · rename_i hs
      exact absurd hs h2
    · rfl

theorem members_norm (c : Cls) (a : String) (h : kept? c a = true) (fs : List (String × Val Cls)) :
    ∃ b, members (.obj c (normFields tables c fs)) a = (members (.obj c fs) a).map (normVal tables b) := by
  have hl : a ∉ tables.lost c := by
    simp only [kept?, Bool.and_eq_true, decide_eq_true_eq] at h
    exact h.1
  refine ⟨numField (tables.schema c) a, ?_⟩
  simp only [members]
  induction fs with
  | nil => rfl
  | cons p fs ih =>
    obtain ⟨k, v⟩ := p
    rw [normFields]
    by_cases hk : k = a
    · subst hk
      rw [if_neg hl, cutAt_kept h]
      simp only [dictGet, if_true]
      cases v with
      | list vs => simp only [normVal, normList_map]
      | _ => simp [normVal]
    · by_cases hkl : k ∈ tables.lost c
      · rw [if_pos hkl]
        simpa only [dictGet, if_neg hk] using ih
      · rw [if_neg hkl]
        simpa only [dictGet, if_neg hk] using ih

theorem named_norm (b : Bool) (l : List (Val Cls)) (n : String) :
    named (l.map (normVal tables b)) n = (named l n).map (normVal tables false) := by
  induction l with
  | nil => rfl
  | cons v l ih =>
    simp only [named, List.map_cons, List.find?_cons, elemName_norm] at ih ⊢
    by_cases h : elemName v = some n
    · simp only [h, decide_true, Option.map_some]
      cases v with
      | obj c fs => rw [normVal_obj tables b false]
      | _ => simp [elemName] at h
    · simp only [h, decide_false]
      exact ih

theorem searched_kept : ∀ c : Cls, ∀ a ∈ searched c, kept? c a = true := by
  intro c
  have h : ∀ n < 186, ∀ a ∈ searched (Cls.ofNat n), kept? (Cls.ofNat n) a = true := by decide +kernel
  have := h c.ctorIdx (by cases c <;> decide)
  rwa [Cls.ofNat_ctorIdx] at this

theorem named_members (c : Cls) (a : String) (ha : a ∈ searched c) (fs : List (String × Val Cls))
    (n : String) : named (members (.obj c (normFields tables c fs)) a) n =
      (named (members (.obj c fs) a) n).map (normVal tables false) := by
  obtain ⟨b, h⟩ := members_norm c a (searched_kept c a ha) fs
  rw [h, named_norm]

theorem elemFind_norm (v : Val Cls) (ref : List Char) :
    elemFind (normVal tables false v) ref =
      (elemFind v ref).map fun r => r.map (normVal tables false) := by
  cases v with
  | obj c fs =>
    rw [normVal]
    unfold elemFind
    cases c with
    | ImplementationDataType =>
      simp only
      split
      · rfl
      · rw [named_members _ _ (by decide)]; rfl
    | ModeDeclarationGroup =>
      simp only
      rw [named_members _ "mode_declarations" (by decide), named_members _ "mode_transitions" (by decide)]
      cases named (members (.obj Cls.ModeDeclarationGroup fs) "mode_declarations") (String.ofList ref) <;> rfl
    | ApplicationSoftwareComponentType =>
      simp only
      rw [named_members _ _ (by decide)]; rfl
    | CompositionSwComponentType =>
      simp only
      rw [named_members _ "components" (by decide), named_members _ "connectors" (by decide),
        named_members _ "ports" (by decide)]
      cases named (members (.obj Cls.CompositionSwComponentType fs) "components")
        (String.ofList (partL '/' ref).1) with
      | some x => rfl
      | none =>
        cases named (members (.obj Cls.CompositionSwComponentType fs) "connectors")
          (String.ofList (partL '/' ref).1) <;> rfl
    | _ => rfl
  | _ => simp only [normVal] <;> rfl

mutual
theorem findPkg_norm : ∀ (p : Pkg) (ref : List Char),
    findPkg (normPkg p) ref = (findPkg p ref).map fun r => r.map normItem
  | .mk h es ps, ref => by
    rw [normPkg, findPkg, findPkg, named_norm]
    cases named es (String.ofList (partL '/' (stripLead '/' ref)).1) with
    | none =>
      simp only [Option.map_none]
      exact findPkgs_norm ps _
    | some v =>
      simp only [Option.map_some]
      split
      · rw [elemFind_norm]
        cases elemFind v (partL '/' (stripLead '/' ref)).2 with
        | error e => rfl
        | ok r => cases r <;> rfl
      · rfl
theorem findPkgs_norm : ∀ (ps : List Pkg) (parts : List Char × List Char),
    findPkgs (normPkgs ps) parts = (findPkgs ps parts).map fun r => r.map normItem
  | [], _ => rfl
  | p :: ps, parts => by
    rw [normPkgs, findPkgs, findPkgs, name_norm]
    split
    · split
      · exact findPkg_norm p _
      · rfl
    · exact findPkgs_norm ps parts
end

theorem find_norm (ps : List Pkg) (ref : String) :
    find (normPkgs ps) ref = (find ps ref).map fun r => r.map normItem := findPkgs_norm ps _

theorem same_item (x : Item) : SameItem (remainsItem x) (normItem x) := by
  cases x with
  | pkg p => exact .pkg (same_pkg p)
  | obj v => exact .obj (same_norm false v)

theorem alike_item (x : Item) : Alike x (normItem x) := by
  cases x with
  | pkg p => exact (name_norm p).symm
  | obj v => exact ⟨(classOf_norm false v).symm, (elemName_norm false v).symm⟩

/-! ### Ways of names -/

theorem rel_strip (n : String) (ns : List String) (hn : GoodName n) :
    stripLead '/' (relRef (n :: ns)).toList = (relRef (n :: ns)).toList := by
  cases hc : n.toList with
  | nil => exact absurd (String.toList_inj.1 hc) hn.1
  | cons c cs =>
    have : c ≠ '/' := fun h => hn.2 (by rw [hc, h]; simp)
    simp [relRef, String.toList_append, hc, stripLead, this]

theorem rel_cons (n : String) (ns : List String) (hn : GoodName n) :
    partL '/' (stripLead '/' (relRef (n :: ns)).toList) = (n.toList, (relRef ns).toList) := by
  have h0 := rel_strip n ns hn
  rw [h0]
  cases ns with
  | nil =>
    have : (relRef [n]).toList = n.toList := by simp [relRef, absRef_nil]
    rw [this, partL_no_sep _ _ hn.2]
    rfl
  | cons m ms =>
    have : (relRef (n :: m :: ms)).toList = n.toList ++ '/' :: (relRef (m :: ms)).toList := by
      simp [relRef, absRef_cons, String.toList_append]
    rw [this, partL_append _ _ _ hn.2]

theorem rel_ne {ns : List String} (h : ns ≠ []) (hg : ∀ n ∈ ns, GoodName n) :
    (relRef ns).toList ≠ [] := by
  cases ns with
  | nil => exact absurd rfl h
  | cons n ns =>
    intro hc
    have := (hg n (by simp)).1
    simp [relRef, String.toList_append] at hc
    exact this hc.1

theorem abs_rel {ns : List String} (h : ns ≠ []) :
    stripLead '/' (absRef ns).toList = (relRef ns).toList := by
  cases ns with
  | nil => exact absurd rfl h
  | cons n ns => simp [absRef_cons, relRef, String.toList_append, stripLead]

theorem find_cons (ps : List Pkg) (n : String) (ns : List String) (hn : GoodName n) :
    find ps (absRef (n :: ns)) = findPkgs ps (n.toList, (relRef ns).toList) := by
  have h := rel_cons n ns hn
  have h0 := rel_strip n ns hn
  rw [h0] at h
  rw [find, abs_rel (by simp), h]

theorem named_mem {l : List (Val Cls)} {v : Val Cls} {n : String} (hn : (l.map elemName).Nodup)
    (hv : v ∈ l) (hm : elemName v = some n) : named l n = some v := by
  induction l with
  | nil => simp at hv
  | cons u l ih =>
    simp only [List.map_cons, List.nodup_cons] at hn
    simp only [named, List.find?_cons] at ih ⊢
    rcases List.mem_cons.1 hv with rfl | hv
    · simp [hm]
    · have : ¬ elemName u = some n := fun h => hn.1 (by rw [h, ← hm]; exact List.mem_map_of_mem hv)
      simp only [this, decide_false]
      exact ih hn.2 hv

theorem named_none {l : List (Val Cls)} {n : String} (h : some n ∉ l.map elemName) :
    named l n = none := by
  simp only [named, List.find?_eq_none, decide_eq_true_eq]
  intro x hx he
  exact h (by rw [← he]; exact List.mem_map_of_mem hx)

theorem findPkgs_mem {ps : List Pkg} {p : Pkg} {n : String} (hn : (ps.map Pkg.name).Nodup)
    (hp : p ∈ ps) (hm : p.name = some n) (t : List Char) :
    findPkgs ps (n.toList, t) = if t ≠ [] then findPkg p t else .ok (some (.pkg p)) := by
  induction ps with
  | nil => simp at hp
  | cons q ps ih =>
    simp only [List.map_cons, List.nodup_cons] at hn
    rw [findPkgs]
    simp only [String.ofList_toList]
    rcases List.mem_cons.1 hp with rfl | hp
    · rw [if_pos hm]
    · have : ¬ q.name = some n := fun h => hn.1 (by rw [h, ← hm]; exact List.mem_map_of_mem hp)
      rw [if_neg this]
      exact ih hn.2 hp

theorem wf_mem {ps : List Pkg} (h : WellFormedPkgs ps) {p : Pkg} (hp : p ∈ ps) : WellFormedPkg p := by
  induction ps with
  | nil => simp at hp
  | cons q ps ih =>
    rw [WellFormedPkgs] at h
    rcases List.mem_cons.1 hp with rfl | hp
    · exact h.1
    · exact ih h.2 hp

theorem wf_parts {p : Pkg} (h : WellFormedPkg p) :
    (p.elements.map elemName ++ p.packages.map Pkg.name).Nodup ∧ WellFormedPkgs p.packages := by
  cases p with
  | mk hd es ps =>
    rw [WellFormedPkg] at h
    exact ⟨h.2.2.1, h.2.2.2⟩

/-- Down to a package, and on. -/
theorem find_package {ps : List Pkg} {way : List String} {p : Pkg} (h : PackageAt ps way p) :
    WellFormedPkgs ps → (ps.map Pkg.name).Nodup → ∀ (rest : List String),
    (∀ n ∈ way ++ rest, GoodName n) →
    find ps (absRef (way ++ rest)) =
      if rest = [] then .ok (some (.pkg p)) else findPkg p (relRef rest).toList := by
  induction h with
  | @here ps p n hp hn =>
    intro hw hd rest hg
    rw [List.singleton_append, find_cons _ _ _ (hg n (by simp)), findPkgs_mem hd hp hn]
    by_cases hr : rest = []
    · subst hr; rfl
    · rw [if_neg hr, if_pos (rel_ne hr fun m hm => hg m (by simp [hm]))]
  | @inside ps p q n way hp hn ha ih =>
    intro hw hd rest hg
    obtain ⟨h1, h2⟩ := wf_parts (wf_mem hw hp)
    have hd2 : (p.packages.map Pkg.name).Nodup := (List.nodup_append.1 h1).2.1
    have ih := ih h2 hd2 rest fun m hm => hg m (by simp at hm ⊢; exact .inr hm)
    have hne : way ++ rest ≠ [] := by
      cases ha <;> simp
    rw [List.cons_append, find_cons _ _ _ (hg n (by simp)), findPkgs_mem hd hp hn,
      if_pos (rel_ne hne fun m hm => hg m (by simp at hm ⊢; exact .inr hm)), ← ih]
    obtain ⟨m, ms, hms, hmp⟩ : ∃ m ms, way ++ rest = m :: ms ∧ some m ∈ p.packages.map Pkg.name := by
      cases ha with
      | here h1 h2 => exact ⟨_, _, rfl, List.mem_map.2 ⟨_, h1, h2⟩⟩
      | inside h1 h2 _ => exact ⟨_, _, rfl, List.mem_map.2 ⟨_, h1, h2⟩⟩
    have hgm : GoodName m := hg m (by simp only [List.cons_append, hms]; simp)
    rw [hms, find_cons _ _ _ hgm]
    cases p with
    | mk hd' es qs =>
      rw [findPkg, rel_cons m ms hgm]
      simp only [String.ofList_toList]
      have hno : named es m = none := named_none fun hmem =>
        (List.nodup_append.1 h1).2.2 _ hmem _ hmp rfl
      rw [hno]
      rfl

theorem find_element {ps : List Pkg} {way : List String} {v : Val Cls} (h : ElementAt ps way v)
    (hw : WellFormedPkgs ps) (hd : (ps.map Pkg.name).Nodup) (rest : List String)
    (hg : ∀ n ∈ way ++ rest, GoodName n) :
    find ps (absRef (way ++ rest)) =
      if rest = [] then .ok (some (.obj v))
      else (elemFind v (relRef rest).toList).map fun r => r.map .obj := by
  cases h with
  | @mk p way m v hp hv hm =>
    rw [List.append_assoc, find_package hp hw hd ([m] ++ rest) (by simpa using hg)]
    have hwp : WellFormedPkg p := by
      clear hg hv hm
      induction hp with
      | here h1 _ => exact wf_mem hw h1
      | inside h1 _ _ ih =>
        obtain ⟨h2, h3⟩ := wf_parts (wf_mem hw h1)
        exact ih h3 (List.nodup_append.1 h2).2.1
    obtain ⟨h1, -⟩ := wf_parts hwp
    have hgm : GoodName m := hg m (by simp)
    rw [if_neg (by simp)]
    cases p with
    | mk hd' es qs =>
      rw [findPkg, List.singleton_append, rel_cons m rest hgm]
      simp only [String.ofList_toList]
      have hes : named es m = some v := named_mem (List.nodup_append.1 h1).1 hv hm
      rw [hes]
      by_cases hr : rest = []
      · subst hr; rfl
      · rw [if_neg hr]
        simp only
        rw [if_pos (rel_ne hr fun k hk => hg k (by simp [hk]))]

theorem nodup_left {α : Type} {a b : List α} (h : (a ++ b).Nodup) : a.Nodup := (List.nodup_append.1 h).1
theorem nodup_right {α : Type} {a b : List α} (h : (a ++ b).Nodup) : b.Nodup :=
  (List.nodup_append.1 h).2.1
theorem nodup_other {α : Type} {a b : List α} (h : (a ++ b).Nodup) {x : α} (hx : x ∈ b) : x ∉ a :=
  fun ha => (List.nodup_append.1 h).2.2 x ha x hx rfl

theorem find_part {v x : Val Cls} {n : String} (hd : ((findable v).map elemName).Nodup)
    (hx : x ∈ findable v) (hn : elemName x = some n) (hg : GoodName n) :
    elemFind v n.toList = .ok (some x) := by
  have hp : partL '/' n.toList = (n.toList, []) := partL_no_sep _ _ hg.2
  cases v with
  | obj c fs =>
    simp only [findable] at hd hx
    cases c with
    | ImplementationDataType =>
      simp only [searched, List.flatMap_cons, List.flatMap_nil, List.append_nil] at hd hx
      simp only [elemFind, if_neg hg.2, String.ofList_toList]
      rw [named_mem hd hx hn]
    | ApplicationSoftwareComponentType =>
      simp only [searched, List.flatMap_cons, List.flatMap_nil, List.append_nil] at hd hx
      simp only [elemFind, hp, String.ofList_toList]
      rw [named_mem hd hx hn]
    | ModeDeclarationGroup =>
      simp only [searched, List.flatMap_cons, List.flatMap_nil, List.append_nil, List.map_append,
        List.mem_append] at hd hx
      simp only [elemFind, String.ofList_toList]
      rcases hx with hx | hx
      · rw [named_mem (nodup_left hd) hx hn]
      · rw [named_none (nodup_other hd (hn ▸ List.mem_map_of_mem hx)),
          named_mem (nodup_right hd) hx hn]
    | CompositionSwComponentType =>
      simp only [searched, List.flatMap_cons, List.flatMap_nil, List.append_nil, List.map_append,
        List.mem_append] at hd hx
      simp only [elemFind, hp, String.ofList_toList]
      rcases hx with hx | hx | hx
      · rw [named_mem (nodup_left hd) hx hn]
      · rw [named_none (nodup_other hd (List.mem_append.2 (.inl (hn ▸ List.mem_map_of_mem hx)))),
          named_mem (nodup_left (nodup_right hd)) hx hn]
      · rw [named_none (nodup_other hd (List.mem_append.2 (.inr (hn ▸ List.mem_map_of_mem hx)))),
          named_none (nodup_other (nodup_right hd) (hn ▸ List.mem_map_of_mem hx)),
          named_mem (nodup_right (nodup_right hd)) hx hn]
    | _ => simp [searched] at hx
  | _ => simp [findable] at hx

theorem find_at {ps : List Pkg} {way : List String} {x : Item} (h : At ps way x)
    (hw : WellFormedPkgs ps) (hd : (ps.map Pkg.name).Nodup) (hg : ∀ n ∈ way, GoodName n) :
    find ps (absRef way) = .ok (some x) := by
  cases h with
  | package h =>
    have := find_package h hw hd [] (by simpa using hg)
    simpa using this
  | element h =>
    have := find_element h hw hd [] (by simpa using hg)
    simpa using this
  | @part way n v x h hn hx hm =>
    rw [find_element h hw hd [n] hg, if_neg (by simp)]
    have : (relRef [n]).toList = n.toList := by simp [relRef, absRef_nil]
    rw [this, find_part hn hx hm (hg n (by simp))]
    rfl

end Verif.Codec.Find
