import Verif.Codec.MakeProof
import Verif.Props.CodecConnect
/-
C71: `make_packages` on documents that are saved and loaded.
-/
set_option linter.unusedSimpArgs false
namespace Verif.Props.CodecMake
open Verif.Py Verif.Pkg.Spec Verif.Codec Verif.Codec.Spec Verif.Codec.Find Verif.Codec.FindSpec
open Verif.Codec.Make Verif.Codec.MakeSpec
open Verif.Codec.Older.Spec (areasNamedPkgs SameSide)

/-- C71: unless an element is in the way, `make_packages` returns the package at the end of the way, and `find` finds
it there. All that has changed is that the packages on the way that were missing are there: they have only their
names; every other package and every element is where it was. -/
theorem C71_made {ps : List Pkg} (hw : WellFormedPkgs ps) (hd : (ps.map Pkg.name).Nodup) {way : List String}
    (hne : way ≠ []) (hg : ∀ n ∈ way, GoodName n) (hfree : ∀ w v, w <+: way → ¬ ElementAt ps w v) (t : String)
    (ht : t = absRef way ∨ t = relRef way) :
    ∃ ps' p, make ps t = (ps', .ok p) ∧ PackageAt ps' way p ∧ Only (· <+: way) ps ps' ∧
      (∀ w v, ElementAt ps' w v ↔ ElementAt ps w v) ∧
      ((∀ n ∈ way, plainText n = true) → find ps' (absRef way) = .ok (some (.pkg p))) := by
  rw [make_way hne hg ps t ht]
  cases way with
  | nil => exact absurd rfl hne
  | cons n w =>
    obtain ⟨r, r1, r2⟩ := makeWay_made (n :: w) (.mk [] [] ps) (fun m v _ hm => by simp [Pkg.elements] at hm) hfree
    simp only [makeWay, List.map_nil, List.not_mem_nil, if_false, Pkg.packages] at r1 r2
    have hat : PackageAt (descend (makeWay w) n ps).1 (n :: w) r := r2.resolve_left (by simp)
    have ho := make_way_only hw hd n w
    refine ⟨_, r, Prod.ext rfl r1, hat, ho, only_elements ho, fun hp => ?_⟩
    have hgood := make_good hw hd hne (fun m hm => ⟨hg m hm, hp m hm⟩) t ht
    rw [make_way hne hg ps t ht] at hgood
    have := find_package hat hgood.1 hgood.2.1 [] (by simpa using hg)
    rw [List.append_nil, if_pos rfl] at this
    exact this

/-- C71: if the package is there already, it is returned as it is and nothing changes. -/
theorem C71_there {ps : List Pkg} (hw : WellFormedPkgs ps) (hd : (ps.map Pkg.name).Nodup) {way : List String}
    (hg : ∀ n ∈ way, GoodName n) {p : Pkg} (hp : PackageAt ps way p) (t : String)
    (ht : t = absRef way ∨ t = relRef way) : make ps t = (ps, .ok p) := by
  have hne : way ≠ [] := by cases hp <;> simp
  rw [make_way hne hg ps t ht]
  cases way with
  | nil => exact absurd rfl hne
  | cons n w =>
    have := descend_there hp hw hd n w rfl [] (.ok p) rfl
    rw [List.append_nil] at this
    exact this

/-- C71: if an element is in the way, or is all that has the name, the exception is KeyError and nothing changes. -/
theorem C71_refused {ps : List Pkg} (hw : WellFormedPkgs ps) (hd : (ps.map Pkg.name).Nodup) {way rest : List String}
    (hg : ∀ n ∈ way ++ rest, GoodName n) {v : Val Cls} (hv : ElementAt ps way v) (t : String)
    (ht : t = absRef (way ++ rest) ∨ t = relRef (way ++ rest)) : make ps t = (ps, .error .keyError) := by
  cases hv with
  | @mk p way m _ hp hv hm =>
    have hne : (way ++ [m]) ++ rest ≠ [] := by simp
    rw [make_way hne hg ps t ht]
    cases way with
    | nil => cases hp
    | cons n w =>
      have hmk : makeWay ([m] ++ rest) p = (p, .error .keyError) := by
        cases p with
        | mk a es qs =>
          rw [List.singleton_append, makeWay, if_pos (show some m ∈ es.map elemName from List.mem_map.2 ⟨v, hv, hm⟩)]
      have := descend_there hp hw hd n w rfl _ _ hmk
      simpa using this

/-- C71: a slash at the end makes no difference. Where one slash follows another, the exception is ValueError, but the
packages before the slashes have been made. -/
theorem C71_slashes (ps : List Pkg) {way : List String} (hne : way ≠ []) (hg : ∀ n ∈ way, GoodName n) (t : String)
    (ht : t = absRef way ∨ t = relRef way) :
    make ps (t ++ "/") = make ps t ∧
    ∀ s, (make ps (t ++ "//" ++ s)).1 = (make ps t).1 ∧
      (make ps (t ++ "//" ++ s)).2 = match (make ps t).2 with
        | .ok _ => .error .valueError
        | .error e => .error e := by
  constructor
  · have := make_slash hne hg ps t "" ht (by intro c cs h; simp at h)
    rw [String.append_empty] at this
    rw [this]
    rfl
  · intro s
    have e : t ++ "//" ++ s = t ++ "/" ++ ("/" ++ s) := by
      apply String.toList_inj.1
      simp [String.toList_append]
    have hl : ("/" ++ s).toList = '/' :: s.toList := by simp [String.toList_append]
    have := make_slash hne hg ps t ("/" ++ s) ht (by
      intro c cs h
      rw [hl] at h
      exact (List.cons.inj h).1.symm)
    rw [e, this, hl]
    refine ⟨rfl, ?_⟩
    simp only
    cases (make ps t).2 <;> rfl

/-- C71: whatever the text is, a package is returned or the exception is KeyError or ValueError; no element is lost,
moved or added, and no package is lost; and a call that returned a package returns the same package again and changes
nothing when it is repeated. -/
theorem C71_any {ps : List Pkg} (hw : WellFormedPkgs ps) (hd : (ps.map Pkg.name).Nodup) (t : String) :
    (∀ e, (make ps t).2 = .error e → e = .keyError ∨ e = .valueError) ∧
    Only (fun _ => True) ps (make ps t).1 ∧
    (∀ w v, ElementAt (make ps t).1 w v ↔ ElementAt ps w v) ∧
    ∀ p, (make ps t).2 = .ok p → make (make ps t).1 t = ((make ps t).1, .ok p) := by
  have ho := make_only hw hd t
  refine ⟨fun e he => ?_, ho, only_elements ho, make_twice ps t⟩
  unfold make at he
  have hgo : ∀ q, (if (partL '/' (stripLead '/' t.toList)).2 ≠ [] then
      makeIn ((partL '/' (stripLead '/' t.toList)).2.length + 1) q (partL '/' (stripLead '/' t.toList)).2
      else (q, .ok q)).2 = .error e → e = .keyError ∨ e = .valueError := by
    intro q hq
    split at hq
    · exact make_outcome _ q _ e (Nat.lt_succ_self _) hq
    · cases hq
  rcases descend_cases (fun q => if (partL '/' (stripLead '/' t.toList)).2 ≠ [] then
      makeIn ((partL '/' (stripLead '/' t.toList)).2.length + 1) q (partL '/' (stripLead '/' t.toList)).2
      else (q, .ok q)) (String.ofList (partL '/' (stripLead '/' t.toList)).1) ps with ⟨a, x, b, -, -, -, h4⟩ | ⟨-, h4⟩
  · simp only [h4] at he; exact hgo _ he
  · simp only [h4] at he; exact hgo _ he

/-- C71: it makes no difference whether the document is saved and loaded before or after the call: the packages are the
same in the end, and so is the outcome of the call. -/
theorem C71_reload (skip stop : Bool) (version : Nat) (doc : Document)
    (h : WellFormedPkgs doc.packages) (hn : (doc.packages.map Pkg.name).Nodup)
    (ha : doc.schemaVersion < 50 → areasNamedPkgs doc.packages = true)
    (hv : skip = true → SameSide version doc.schemaVersion)
    {way : List String} (hne : way ≠ []) (hg : ∀ n ∈ way, GoodName n ∧ plainText n = true) (t : String)
    (ht : t = absRef way ∨ t = relRef way) :
    ∃ text doc' text2 doc2, Older.writeDoc skip doc = .ok text ∧ Older.readDoc stop version text = .ok doc' ∧
      Older.writeDoc skip ⟨doc.schemaVersion, (make doc.packages t).1⟩ = .ok text2 ∧
      Older.readDoc stop version text2 = .ok doc2 ∧
      (make doc'.packages t).1 = doc2.packages ∧
      (∀ e, (make doc.packages t).2 = .error e → (make doc'.packages t).2 = .error e) ∧
      ∀ p, (make doc.packages t).2 = .ok p → ∃ p', (make doc'.packages t).2 = .ok p' ∧ p'.name = p.name := by
  obtain ⟨text, w, r⟩ := Older.doc_rt skip stop version doc h hn ha hv
  have hgood := make_good h hn hne hg t ht
  obtain ⟨text2, w2, r2⟩ := Older.doc_rt skip stop version ⟨doc.schemaVersion, (make doc.packages t).1⟩ hgood.1 hgood.2.1
    (fun hlt => hgood.2.2 (ha hlt)) hv
  refine ⟨text, _, text2, _, w, r, w2, r2, ?_, fun e he => ?_, fun p hp => ?_⟩
  · simp only [make_norm]
  · simp only [make_norm, he]; rfl
  · exact ⟨normPkg p, by simp only [make_norm, hp]; rfl, name_norm p⟩

/-! ### Examples -/

theorem names_good : ∀ n ∈ ["Swcs", "Types", "Base"], GoodName n ∧ plainText n = true := by
  simp only [List.mem_cons, List.not_mem_nil, or_false]
  rintro n (rfl | rfl | rfl) <;> exact ⟨⟨by decide, by decide⟩, by decide⟩

theorem names_good2 : ∀ n ∈ ["Swcs", "System"] ++ ["Types"], GoodName n := by
  simp only [List.cons_append, List.nil_append, List.mem_cons, List.not_mem_nil, or_false]
  rintro n (rfl | rfl | rfl) <;> exact ⟨by decide, by decide⟩

theorem free : ∀ w v, w <+: ["Swcs", "Types", "Base"] → ¬ ElementAt CodecConnect.sample.packages w v := by
  rintro w v hw ⟨hp, hv, hm⟩
  cases hp with
  | here h1 h2 =>
    simp only [CodecConnect.sample, List.mem_singleton] at h1
    subst h1
    simp only [Pkg.elements, List.mem_cons, List.not_mem_nil, or_false] at hv
    obtain ⟨t, ht⟩ := hw
    simp only [List.cons_append, List.nil_append, List.cons.injEq] at ht
    obtain ⟨-, rfl, -⟩ := ht
    rcases hv with rfl | rfl | rfl <;> exact absurd hm (by decide +kernel)
  | inside h1 h2 h3 =>
    simp only [CodecConnect.sample, List.mem_singleton] at h1
    subst h1
    cases h3 with
    | here h => cases h
    | inside h => cases h

/-- Two packages are made in one that is there. -/
example : ∃ ps' p, make CodecConnect.sample.packages "/Swcs/Types/Base" = (ps', .ok p) ∧
    PackageAt ps' ["Swcs", "Types", "Base"] p ∧
    find ps' "/Swcs/Types/Base" = .ok (some (.pkg p)) := by
  obtain ⟨ps', p, h1, h2, -, -, h5⟩ := C71_made CodecConnect.sample_wf (by decide) (by simp)
    (fun n hn => (names_good n hn).1) free "/Swcs/Types/Base" (.inl (by decide +kernel))
  exact ⟨ps', p, h1, h2, by
    have := h5 fun n hn => (names_good n hn).2
    rwa [show absRef ["Swcs", "Types", "Base"] = "/Swcs/Types/Base" by decide +kernel] at this⟩

/-- Names of new packages, and the slash that is left over. -/
example : ((make CodecConnect.sample.packages "New/Types//X").1.map Pkg.name) = [some "Swcs", some "New"] ∧
    (make CodecConnect.sample.packages "New/Types//X").2.toOption.isNone = true ∧
    (make CodecConnect.sample.packages "New/Types/").2.toOption.map Pkg.name = some (some "Types") := by
  decide +kernel

/-- The composition is no package. -/
example : make CodecConnect.sample.packages "/Swcs/System/Types" = (CodecConnect.sample.packages, .error .keyError) :=
  C71_refused CodecConnect.sample_wf (by decide) names_good2 CodecConnect.sample_at _ (.inl (by decide +kernel))

/-- The package that is there. -/
example : ∃ p, make CodecConnect.sample.packages "Swcs" = (CodecConnect.sample.packages, .ok p) :=
  ⟨_, C71_there CodecConnect.sample_wf (by decide) (way := ["Swcs"]) (by simp [GoodName])
    (.here (p := .mk [("name", .str "Swcs")] [CodecConnect.sender, CodecConnect.receiver, CodecConnect.system] [])
      (by simp [CodecConnect.sample]) rfl) _ (.inr (by decide +kernel))⟩

/-- Before or after saving. -/
example : ∃ text doc' text2 doc2, Older.writeDoc false CodecConnect.sample = .ok text ∧
    Older.readDoc false 51 text = .ok doc' ∧
    Older.writeDoc false ⟨51, (make CodecConnect.sample.packages "/Swcs/Types/Base").1⟩ = .ok text2 ∧
    Older.readDoc false 51 text2 = .ok doc2 ∧ (make doc'.packages "/Swcs/Types/Base").1 = doc2.packages := by
  obtain ⟨a, b, c, d, h1, h2, h3, h4, h5, -⟩ := C71_reload false false 51 CodecConnect.sample CodecConnect.sample_wf
    (by decide) (fun h => absurd h (by decide)) (fun h => absurd h (by decide)) (by simp) names_good
    "/Swcs/Types/Base" (.inl (by decide +kernel))
  exact ⟨a, b, c, d, h1, h2, h3, h4, h5⟩

end Verif.Props.CodecMake
