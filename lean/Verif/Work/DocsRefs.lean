import Verif.Work.DocsKeep
set_option linter.unusedSimpArgs false
set_option linter.unusedVariables false
namespace Verif.Work
open Verif.Py Verif.Pkg Verif.Pkg.Spec

theorem parent_lt {h : Heap} (I : Inv h) {x p : Nat} (hp : (h.obj x).parent = some p) :
    p < h.next := by
  cases hc : (h.obj x).cls with
  | collection => have := I.coll_parent x hc; rw [hp] at this; simp at this
  | package => exact (I.item_parent x p hp (by rw [hc]; rfl)).1
  | element k => exact (I.item_parent x p hp (by rw [hc]; rfl)).1
  | member k => exact (I.member_parent x p k hp hc).1

theorem parentPath_last {h : Heap} {c x : Nat} {ns : List String} (p : ParentPath h c ns x) :
    ∃ ms, ns = ms ++ [(h.obj x).name] := by
  cases p with
  | top _ _ => exact ⟨[], rfl⟩
  | under _ _ => exact ⟨_, rfl⟩

/-- Chains of parents keep their names, and detached objects stay detached. -/
def RefKept (h h' : Heap) : Prop := ∀ x, x < h.next →
  (∀ c ns, ParentPath h c ns x → ∃ c', ParentPath h' c' ns x) ∧ (Detached h x → Detached h' x)

theorem RefKept.refl (h : Heap) : RefKept h h := fun _ _ => ⟨fun c _ p => ⟨c, p⟩, id⟩

theorem RefKept.trans {a b c : Heap} (x : RefKept a b) (y : RefKept b c) (hn : a.next ≤ b.next) :
    RefKept a c := by
  intro i hi
  have h1 := x i hi
  have h2 := y i (Nat.lt_of_lt_of_le hi hn)
  refine ⟨fun c' ns p => ?_, fun d => h2.2 (h1.2 d)⟩
  obtain ⟨c1, p1⟩ := h1.1 c' ns p
  exact h2.1 c1 ns p1

theorem refKept_of {h h' : Heap} (I : Inv h)
    (hc : ∀ i, i < h.next → (h'.obj i).cls = (h.obj i).cls)
    (hn : ∀ i, i < h.next → (h'.obj i).name = (h.obj i).name)
    (hp : ∀ x, x < h.next → (h'.obj x).parent = (h.obj x).parent ∨
      ∃ c ns c', ParentPath h c ns x ∧ ParentPath h' c' ns x) : RefKept h h' := by
  intro x hx
  constructor
  · intro c ns p
    induction p with
    | @top x h1 h2 =>
      rcases hp x hx with e | ⟨c1, ns1, c2, p1, p2⟩
      · refine ⟨c, ?_⟩
        rw [← hn x hx]
        exact .top (by rw [e]; exact h1) (by rw [hc c (parent_lt I h1)]; exact h2)
      · have := parentPath_unique I p1 (.top h1 h2)
        rw [← this.1]; exact ⟨c2, p2⟩
    | @under ns q x hq h1 ih =>
      rcases hp x hx with e | ⟨c1, ns1, c2, p1, p2⟩
      · obtain ⟨c', p'⟩ := ih (parent_lt I h1)
        refine ⟨c', ?_⟩
        rw [← hn x hx]
        exact .under p' (by rw [e]; exact h1)
      · have := parentPath_unique I p1 (.under hq h1)
        rw [← this.1]; exact ⟨c2, p2⟩
  · intro d
    induction d with
    | @here x h1 h2 =>
      rcases hp x hx with e | ⟨c1, ns1, c2, p1, p2⟩
      · exact .here (by rw [hc x hx]; exact h1) (by rw [e]; exact h2)
      · exact absurd (parentPath_not_detached I p1 (.here h1 h2)) id
    | @up x q h1 h2 ih =>
      rcases hp x hx with e | ⟨c1, ns1, c2, p1, p2⟩
      · exact .up (by rw [e]; exact h1) (ih (parent_lt I h1))
      · exact absurd (parentPath_not_detached I p1 (.up h1 h2)) id

theorem refReturns_kept {h h' : Heap} (I : Inv h) (I' : Inv h') (R : RefKept h h') {x : Nat}
    (hx : x < h.next) (hc : (h.obj x).cls ≠ .collection) {r : Option String}
    (hr : RefReturns h x r) : RefReturns h' x r := by
  rcases refReturns_cases I hc hr with ⟨c, ns, p, rfl⟩ | ⟨d, rfl⟩
  · obtain ⟨c', p'⟩ := (R x hx).1 c ns p
    exact refReturns_of_path I' p'
  · exact refReturns_of_detached I' ((R x hx).2 d)

/-! ### When references are kept -/

/-- The packages named by document configurations are at the top: their reference is `/name`. -/
def TopRefs (w : DocWs) : Prop := ∀ d ∈ w.docs, ∀ r ∈ d.packageRefs, ∀ p,
  find w.heap w.root r = .ok (some p) → ∃ c n, ParentPath w.heap c [n] p

/-- A mapped package and its elements have references that agree with each other, with usable
names. -/
def MapRefs (w : DocWs) (mp : Mapping) : Prop := ∀ p,
  find w.heap w.root mp.packageRef = .ok (some p) → (w.heap.obj p).cls = .package →
  ∃ c ns, ParentPath w.heap c ns p ∧ (∀ n ∈ ns, GoodName n) ∧
    ∀ y ∈ (w.heap.obj p).elements, ∃ c', ParentPath w.heap c' (ns ++ [(w.heap.obj y).name]) y

theorem topRefs_step {w w' : DocWs} (I : DocInv w) (S : WStep (IsDoc w) w w')
    (R : RefKept w.heap w'.heap) (T : TopRefs w) : TopRefs w' := by
  intro d hd r hr p hp
  rw [S.root, find_step I S _ I.root.1 (root_not_doc I)] at hp
  rw [S.docs] at hd
  obtain ⟨c, n, h1⟩ := T d hd r hr p hp
  obtain ⟨c', h2⟩ := (R p (find_lt I.inv _ _ _ _ hp)).1 c _ h1
  exact ⟨c', n, h2⟩

theorem mapRefs_step {w w' : DocWs} (I : DocInv w) (S : WStep (IsDoc w) w w')
    (R : RefKept w.heap w'.heap) {mp : Mapping} (M : MapRefs w mp) : MapRefs w' mp := by
  intro p hp hc
  rw [S.root, find_step I S _ I.root.1 (root_not_doc I)] at hp
  have hplt := find_lt I.inv _ _ _ _ hp
  rw [S.aside.cls _ hplt] at hc
  obtain ⟨c, ns, h1, h2, h3⟩ := M p hp hc
  obtain ⟨c', h4⟩ := (R p hplt).1 c ns h1
  have hnd : ¬ IsDoc w p := by
    rintro ⟨d, hd, rfl⟩
    rw [(I.docs d hd).2.1] at hc; simp at hc
  refine ⟨c', ns, h4, h2, ?_⟩
  rw [(bare_fields (S.aside.same p hplt hnd)).2.2.2.1]
  intro y hy
  have hy' := (I.inv.elems_cls p y hy).1
  obtain ⟨c1, h5⟩ := h3 y hy
  rw [S.aside.name _ hy']
  exact (R y hy').1 _ _ h5

theorem addPackages_refs {w : DocWs} (I : DocInv w) {d : DocConfig} (hd : d ∈ w.docs) :
    ∀ (refs : List String) (h : Heap), WStep (IsDoc w) w { w with heap := h } →
    RefKept w.heap h →
    (∀ r ∈ refs, ∀ p, find w.heap w.root r = .ok (some p) → ∃ c n, ParentPath w.heap c [n] p) →
    RefKept w.heap (addPackages h w.root d.document refs).1 := by
  intro refs
  induction refs with
  | nil => intro h _ R _; exact R
  | cons r rs ih =>
    intro h S R T
    have hf := find_step I S _ I.root.1 (root_not_doc I) r
    simp only at hf
    have hdoc := I.docs d hd
    have hdlt := Nat.lt_of_lt_of_le hdoc.1 S.aside.next
    have hdc : (h.obj d.document).cls = .collection := by
      have := S.aside.cls _ hdoc.1; simp only at this; rw [this]; exact hdoc.2.1
    unfold addPackages
    rw [hf]
    cases hff : find w.heap w.root r with
    | error e => exact R
    | ok o =>
      cases o with
      | none => exact ih h S R (fun x hx => T x (by simp [hx]))
      | some p =>
        simp only
        split
        · rename_i hpc
          have hp := find_lt I.inv _ _ _ _ hff
          obtain ⟨c, n, h1⟩ := T r (by simp) p hff
          obtain ⟨c', h2⟩ := (R p hp).1 c _ h1
          have hp' := Nat.lt_of_lt_of_le hp S.aside.next
          have I1 := inv_collectionAppend S.inv hdlt hdc hp'
          have A := aside_collectionAppend h d.document p
          have K := keep_collectionAppend h d.document p
          have hR : RefKept h (collectionAppend h d.document p).1 := by
            rcases collectionAppend_cases h d.document p with h1 | ⟨A1, _, _, _⟩
            · rw [h1]; exact RefKept.refl _
            · apply refKept_of S.inv A.cls A.name
              intro x hx
              rw [A1.parent]
              by_cases hxp : x = p
              · subst hxp
                right
                refine ⟨c', [n], d.document, h2, ?_⟩
                have hn : n = (h.obj x).name := by
                  obtain ⟨ms, hms⟩ := parentPath_last h2
                  cases ms with
                  | nil => simpa using hms
                  | cons a b => simp at hms
                rw [hn, ← A.name x hx]
                exact .top (by rw [A1.parent]; simp) (by rw [A.cls _ hdlt]; exact hdc)
              · left; simp [hxp]
          rcases hq : collectionAppend h d.document p with ⟨h1, o⟩
          rw [hq] at I1 A K hR
          have R1 := R.trans hR S.aside.next
          cases o with
          | error e => exact R1
          | ok u =>
            exact ih h1 ⟨I1, S.aside.trans (A.mono (fun i _ e => ⟨d, hd, e.symm⟩)), S.keep.trans K,
              rfl, rfl, rfl, rfl⟩ R1 (fun x hx => T x (by simp [hx]))
        · exact R

theorem writeConfigs_refs : ∀ (ds : List DocConfig) {w : DocWs}, DocInv w → (∀ d ∈ ds, d ∈ w.docs) →
    TopRefs w → RefKept w.heap (writeConfigs w ds).1.heap := by
  intro ds
  induction ds with
  | nil => intro w _ _ _; exact RefKept.refl _
  | cons d ds ih =>
    intro w I hds T
    have S := writeConfig_any I (hds d (by simp))
    have R : RefKept w.heap (writeConfig w d).1.heap := by
      have := addPackages_refs I (hds d (by simp)) d.packageRefs w.heap (WStep.refl _ I.inv)
        (RefKept.refl _) (T d (hds d (by simp)))
      unfold writeConfig
      rcases hq : addPackages w.heap w.root d.document d.packageRefs with ⟨h, o⟩
      rw [hq] at this
      cases o <;> exact this
    unfold writeConfigs
    rcases hq : writeConfig w d with ⟨w1, o⟩
    rw [hq] at S R
    cases o with
    | error e => exact R
    | ok u =>
      exact R.trans (ih (docInv_step I S) (fun x hx => by rw [S.docs]; exact hds x (by simp [hx]))
        (topRefs_step I S R T)) S.aside.next

theorem writeMatched_refs {w w' : DocWs} (I : Inv w.heap) {pkg c : Nat} {ns : List String}
    (hp : ParentPath w.heap c ns pkg) (hpc : (w.heap.obj pkg).cls = .package)
    (g : ∀ n ∈ ns, GoodName n) {emap : Dict Nat} {suffixes : List String} {m : Nat}
    (hm : m ∈ (w.heap.obj pkg).elements)
    (he : ∀ k x, dictGet emap k = some x → x ∈ (w.heap.obj pkg).elements)
    (hy : ∀ y ∈ (w.heap.obj pkg).elements, ∃ c', ParentPath w.heap c' (ns ++ [(w.heap.obj y).name]) y)
    (hok : writeMatched w pkg emap suffixes m = (w', .ok ())) : RefKept w.heap w'.heap := by
  have hmem : ∀ y ∈ m :: extras w.heap emap m suffixes, y ∈ (w.heap.obj pkg).elements := by
    intro y hy
    rcases List.mem_cons.mp hy with rfl | hy
    · exact hm
    · unfold extras at hy
      rw [List.mem_filterMap] at hy
      obtain ⟨s, _, hs⟩ := hy
      split at hs
      · exact he _ _ hs
      · simp at hs
  obtain ⟨h2, np, M, e⟩ := writeMatched_core I hp hpc g emap suffixes m
    (fun y hy => (I.elems_cls pkg y (hmem y hy)).1)
  rw [hok] at e
  have hel : ∀ y ∈ sortByName w.heap (m :: extras w.heap emap m suffixes), isElement w.heap y = true := by
    intro y hy
    obtain ⟨_, k, hk⟩ := I.elems_cls pkg y (hmem y ((sortByName_perm _ _).mem_iff.mp hy))
    exact isElement_iff.mpr ⟨k, hk⟩
  have hmem' : ∀ y ∈ sortByName w.heap (m :: extras w.heap emap m suffixes),
      y ∈ (w.heap.obj pkg).elements := fun y hy => hmem y ((sortByName_perm _ _).mem_iff.mp hy)
  generalize sortByName w.heap (m :: extras w.heap emap m suffixes) = sl at *
  have hnx : (w.heap.alloc .collection "").next = w.heap.next + 1 := rfl
  have hmade : ∀ j, j < w.heap.next → h2.obj j = w.heap.obj j := by
    intro j hj
    rw [M.frame j (by omega) (by omega), alloc_obj_ne _ _ _ (by omega)]
  have hel2 : ∀ y ∈ sl, isElement h2 y = true := by
    intro y hy
    obtain ⟨k, hk⟩ := isElement_iff.mp (hel y hy)
    exact isElement_iff.mpr ⟨k, by rw [hmade y (isElement_lt I (hel y hy))]; exact hk⟩
  rcases ha : appendAll h2 np sl with ⟨h3, o⟩
  rw [ha] at e
  cases o with
  | error e1 => simp at e
  | ok u =>
    simp only [Prod.mk.injEq, and_true] at e
    have F := appendAll_filled sl M.inv M.new.2 M.cls hel2 h3 ha
    obtain ⟨S3, _, _, _, _, hfr, hpaths⟩ := made_filled I (parentPath_ne_nil hp) M F hel
    rw [e]
    apply refKept_of I S3.aside.cls S3.aside.name
    intro x hx
    by_cases hxl : x ∈ sl
    · right
      obtain ⟨c', h5⟩ := hy x (hmem' x hxl)
      exact ⟨c', _, _, h5, hpaths x hxl⟩
    · left
      show (h3.obj x).parent = _
      rw [hfr x hx hxl]

theorem writeAllMatched_refs {pkg : Nat} {ns : List String} (g : ∀ n ∈ ns, GoodName n)
    {emap : Dict Nat} {suffixes : List String} : ∀ (ms : List Nat) {w w' : DocWs}, Inv w.heap →
    (∃ c, ParentPath w.heap c ns pkg) → (w.heap.obj pkg).cls = .package →
    (∀ m ∈ ms, m ∈ (w.heap.obj pkg).elements) →
    (∀ k x, dictGet emap k = some x → x ∈ (w.heap.obj pkg).elements) →
    (∀ y ∈ (w.heap.obj pkg).elements, ∃ c', ParentPath w.heap c' (ns ++ [(w.heap.obj y).name]) y) →
    writeAllMatched w pkg emap suffixes ms = (w', .ok ()) → RefKept w.heap w'.heap := by
  intro ms
  induction ms with
  | nil =>
    intro w w' _ _ _ _ _ _ hok
    simp only [writeAllMatched, Prod.mk.injEq, and_true] at hok
    subst hok; exact RefKept.refl _
  | cons m ms ih =>
    intro w w' I hp hpc hms he hy hok
    obtain ⟨c, hp⟩ := hp
    have hlt : ∀ y ∈ (w.heap.obj pkg).elements, y < w.heap.next := fun y h => (I.elems_cls pkg y h).1
    have S := writeMatched_any I pkg suffixes (hlt m (hms m (by simp))) (fun k x h => hlt x (he k x h))
    unfold writeAllMatched at hok
    rcases hq : writeMatched w pkg emap suffixes m with ⟨w1, o⟩
    rw [hq] at hok S
    cases o with
    | error e => simp at hok
    | ok u =>
      simp only at hok S
      have R := writeMatched_refs I hp hpc g (hms m (by simp)) he hy hq
      have hplt := parentPath_lt I hp
      have hb := bare_fields (S.aside.same pkg hplt (by simp))
      refine R.trans (ih S.inv ((R pkg hplt).1 c ns hp) (by rw [hb.1]; exact hpc) ?_ ?_ ?_ hok)
        S.aside.next
      · rw [hb.2.2.2.1]; exact fun x hx => hms x (by simp [hx])
      · rw [hb.2.2.2.1]; exact he
      · rw [hb.2.2.2.1]
        intro y h
        obtain ⟨c', h5⟩ := hy y h
        rw [S.aside.name _ (hlt y h)]
        exact (R y (hlt y h)).1 _ _ h5

theorem writeMapping_refs {w w' : DocWs} (I : Inv w.heap) {mp : Mapping} (M : MapRefs w mp)
    (hok : writeMapping w mp = (w', .ok ())) : RefKept w.heap w'.heap := by
  unfold writeMapping at hok
  cases hf : find w.heap w.root mp.packageRef with
  | error e => rw [hf] at hok; simp at hok
  | ok o =>
    rw [hf] at hok
    cases o with
    | none =>
      simp only [Prod.mk.injEq, and_true] at hok
      subst hok; exact RefKept.refl _
    | some p =>
      simp only at hok
      split at hok
      · rename_i hpc
        obtain ⟨c, ns, h1, h2, h3⟩ := M p hf hpc
        rw [matched_list I] at hok
        exact writeAllMatched_refs h2 _ I ⟨c, h1⟩ hpc (fun m hm => (List.mem_filter.mp hm).1)
          (fun k x hx => ((nameDict_get w.heap _ (elems_nodup I p) k x).mp hx).1) h3 hok
      · simp at hok

theorem writeMappings_refs : ∀ (ms : List Mapping) {w w' : DocWs}, DocInv w →
    (∀ m ∈ ms, MapRefs w m) → writeMappings w ms = (w', .ok ()) → RefKept w.heap w'.heap := by
  intro ms
  induction ms with
  | nil =>
    intro w w' _ _ hok
    simp only [writeMappings, Prod.mk.injEq, and_true] at hok
    subst hok; exact RefKept.refl _
  | cons m ms ih =>
    intro w w' I hM hok
    have S := writeMapping_any I.inv m
    unfold writeMappings at hok
    rcases hq : writeMapping w m with ⟨w1, o⟩
    rw [hq] at hok S
    cases o with
    | error e => simp at hok
    | ok u =>
      simp only at hok S
      have R := writeMapping_refs I.inv (hM m (by simp)) hq
      have S' : WStep (IsDoc w) w w1 := S.mono (fun _ h => h.elim)
      exact R.trans (ih (docInv_step I S) (fun x hx => mapRefs_step I S' R (hM x (by simp [hx]))) hok)
        S.aside.next

theorem writeDocuments_refs {w w' : DocWs} (I : DocInv w) (T : TopRefs w)
    (hM : ∀ m ∈ w.mappings, MapRefs w m) (hok : writeDocuments w = (w', .ok ())) :
    RefKept w.heap w'.heap := by
  have S := writeConfigs_any w.docs I (fun _ h => h)
  have R := writeConfigs_refs w.docs I (fun _ h => h) T
  unfold writeDocuments at hok
  rcases hq : writeConfigs w w.docs with ⟨w1, o⟩
  rw [hq] at hok S R
  cases o with
  | error e => simp at hok
  | ok u =>
    simp only at hok S R
    exact R.trans (writeMappings_refs w1.mappings (docInv_step I S)
      (fun m hm => mapRefs_step I S R (hM m (by rw [← S.mappings]; exact hm))) hok) S.aside.next

end Verif.Work
