import Verif.Work.DocsFresh
set_option linter.unusedSimpArgs false
set_option linter.unusedVariables false
namespace Verif.Work
open Verif.Py Verif.Pkg Verif.Pkg.Spec

/-! ### Specification: the document for one element -/

/-- `y` belongs in the document of `m`: it is `m` itself or an element of the package whose name is
the name of `m` followed by one of the (non-empty) suffixes. -/
def Wanted (h : Heap) (es : List Nat) (suffixes : List String) (m y : Nat) : Prop :=
  y = m ∨ (y ∈ es ∧ ∃ s ∈ suffixes, s ≠ "" ∧ (h.obj y).name = (h.obj m).name ++ s)

/-- The document written for `m`: a package path with the names `ns` and nothing beside it, its last
package lists exactly the wanted elements, each once, sorted by name; the elements' references are
the path and their name; and every object that existed before is written as it was. -/
def DocOf (h0 : Heap) (es : List Nat) (suffixes : List String) (ns : List String) (m : Nat)
    (wr : Written) : Prop :=
  (wr.heap.obj wr.document).cls = .collection ∧
  (∃ np l, Only wr.heap wr.document ns np ∧ (wr.heap.obj np).packages = [] ∧
    (wr.heap.obj np).elements = l ∧ (∀ y, y ∈ l ↔ Wanted h0 es suffixes m y) ∧ l.Nodup ∧
    l.Pairwise (fun a b => (h0.obj a).name ≤ (h0.obj b).name) ∧
    ∀ y ∈ l, RefReturns wr.heap y (some (absRef (ns ++ [(h0.obj y).name])))) ∧
  ∀ i, i < h0.next → bare (wr.heap.obj i) = bare (h0.obj i)

/-! ### Name dictionaries -/

theorem dictSet_absent {α : Type} (d : Dict α) (k : String) (v : α) (h : dictGet d k = none) :
    dictSet d k v = d ++ [(k, v)] := by
  induction d with
  | nil => rfl
  | cons p d ih =>
    obtain ⟨a, b⟩ := p
    simp only [dictGet] at h
    split at h
    · simp at h
    · rename_i hne
      simp [dictSet, hne, ih h]

theorem dictGet_append_none {α : Type} (d e : Dict α) (k : String) (h : dictGet d k = none) :
    dictGet (d ++ e) k = dictGet e k := by
  induction d with
  | nil => rfl
  | cons p d ih =>
    obtain ⟨a, b⟩ := p
    simp only [dictGet] at h
    split at h
    · simp at h
    · rename_i hne
      simp [dictGet, hne, ih h]

theorem dictGet_append_some {α : Type} (d e : Dict α) (k : String) (v : α) (h : dictGet d k = some v) :
    dictGet (d ++ e) k = some v := by
  induction d with
  | nil => simp [dictGet] at h
  | cons p d ih =>
    obtain ⟨a, b⟩ := p
    simp only [dictGet] at h
    split at h
    · rename_i he
      simp [dictGet, he, h]
    · rename_i hne
      simp [dictGet, hne, ih h]

theorem nameDict_aux (h : Heap) : ∀ (l : List Nat) (d : Dict Nat),
    (l.map fun x => (h.obj x).name).Nodup → (∀ x ∈ l, dictGet d (h.obj x).name = none) →
    l.foldl (fun m x => dictSet m (h.obj x).name x) d = d ++ l.map fun x => ((h.obj x).name, x) := by
  intro l
  induction l with
  | nil => intro d _ _; simp
  | cons x l ih =>
    intro d hn hd
    simp only [List.map_cons, List.nodup_cons] at hn
    simp only [List.foldl_cons]
    rw [dictSet_absent _ _ _ (hd x (by simp)), ih _ hn.2]
    · simp
    · intro y hy
      rw [dictGet_append_none _ _ _ (hd y (by simp [hy]))]
      have : (h.obj x).name ≠ (h.obj y).name := by
        intro e; exact hn.1 (List.mem_map.mpr ⟨y, hy, e.symm⟩)
      simp [dictGet, this]

theorem nameDict_eq (h : Heap) (l : List Nat) (hn : (l.map fun x => (h.obj x).name).Nodup) :
    nameDict h l = l.map fun x => ((h.obj x).name, x) := by
  unfold nameDict
  rw [nameDict_aux h l [] hn (by intro x _; rfl)]
  rfl

theorem nameDict_get (h : Heap) (l : List Nat) (hn : (l.map fun x => (h.obj x).name).Nodup)
    (n : String) (x : Nat) : dictGet (nameDict h l) n = some x ↔ x ∈ l ∧ (h.obj x).name = n := by
  rw [nameDict_eq h l hn]
  induction l with
  | nil => simp [dictGet]
  | cons y l ih =>
    simp only [List.map_cons, List.nodup_cons] at hn
    simp only [List.map_cons, dictGet]
    split
    · rename_i he
      constructor
      · intro e; simp only [Option.some.injEq] at e; subst e; exact ⟨by simp, he⟩
      · rintro ⟨h1, h2⟩
        rcases List.mem_cons.mp h1 with rfl | h1
        · rfl
        · exact absurd (List.mem_map.mpr ⟨x, h1, h2.trans he.symm⟩) hn.1
    · rename_i hne
      rw [ih hn.2]
      constructor
      · rintro ⟨h1, h2⟩; exact ⟨by simp [h1], h2⟩
      · rintro ⟨h1, h2⟩
        rcases List.mem_cons.mp h1 with rfl | h1
        · exact absurd h2 hne
        · exact ⟨h1, h2⟩

theorem elems_nodup {h : Heap} (I : Inv h) (c : Nat) :
    ((h.obj c).elements.map fun x => (h.obj x).name).Nodup := by
  have := I.nodup c
  unfold contents at this
  rw [List.map_append, List.nodup_append] at this
  exact this.2.1

/-! ### The extra elements -/

theorem nodup_of_map {α β : Type} {f : α → β} {l : List α} (h : (l.map f).Nodup) : l.Nodup := by
  induction l with
  | nil => simp
  | cons x l ih =>
    simp only [List.map_cons, List.nodup_cons] at h
    rw [List.nodup_cons]
    exact ⟨fun hx => h.1 (List.mem_map.mpr ⟨x, hx, rfl⟩), ih h.2⟩

theorem toList_pos (s : String) : (s.toList.length > 0) ↔ s ≠ "" := by
  constructor
  · intro h e; subst e; simp at h
  · intro h
    rcases hl : s.toList with _ | ⟨a, l⟩
    · exact absurd (String.toList_eq_nil_iff.mp hl) h
    · simp

theorem append_left_cancel {a b c : String} (h : a ++ b = a ++ c) : b = c := by
  have := congrArg String.toList h
  simp only [String.toList_append, List.append_cancel_left_eq] at this
  exact toList_inj this

theorem extras_mem {h0 h : Heap} {es : List Nat} {m : Nat} {suffixes : List String}
    (hn : (es.map fun x => (h0.obj x).name).Nodup) (hm : (h.obj m).name = (h0.obj m).name) (y : Nat) :
    y ∈ extras h (nameDict h0 es) m suffixes ↔
      y ∈ es ∧ ∃ s ∈ suffixes, s ≠ "" ∧ (h0.obj y).name = (h0.obj m).name ++ s := by
  unfold extras
  rw [List.mem_filterMap]
  constructor
  · rintro ⟨s, hs, he⟩
    split at he
    · rename_i hp
      rw [nameDict_get h0 es hn, hm] at he
      exact ⟨he.1, s, hs, (toList_pos s).mp hp, he.2⟩
    · simp at he
  · rintro ⟨h1, s, hs, hp, he⟩
    refine ⟨s, hs, ?_⟩
    rw [if_pos ((toList_pos s).mpr hp), nameDict_get h0 es hn, hm]
    exact ⟨h1, he⟩

theorem extras_nodup {h0 h : Heap} {es : List Nat} {m : Nat}
    (hn : (es.map fun x => (h0.obj x).name).Nodup) (hm : (h.obj m).name = (h0.obj m).name) :
    ∀ (suffixes : List String), (suffixes.filter (· ≠ "")).Nodup →
    ((m :: extras h (nameDict h0 es) m suffixes).map fun x => (h0.obj x).name).Nodup := by
  intro suffixes hs
  rw [List.map_cons, List.nodup_cons]
  constructor
  · intro hc
    obtain ⟨y, hy, he⟩ := List.mem_map.mp hc
    obtain ⟨_, s, _, hp, he'⟩ := (extras_mem hn hm y).mp hy
    rw [he] at he'
    have : (h0.obj m).name ++ "" = (h0.obj m).name ++ s := by rw [← he']; simp
    exact hp (append_left_cancel this).symm
  · induction suffixes with
    | nil => simp [extras]
    | cons s ss ih =>
      have hss : (ss.filter (· ≠ "")).Nodup := by
        by_cases hp : s = ""
        · rw [List.filter_cons] at hs; simpa [hp] using hs
        · rw [List.filter_cons] at hs; simp [hp] at hs; simpa using hs.2
      have ih := ih hss
      unfold extras at ih ⊢
      rw [List.filterMap_cons]
      split
      · exact ih
      · rename_i y hy
        rw [List.map_cons, List.nodup_cons]
        refine ⟨?_, ih⟩
        intro hc
        obtain ⟨z, hz, he⟩ := List.mem_map.mp hc
        obtain ⟨_, t, ht, hp, he'⟩ := (extras_mem (h := h) hn hm z).mp hz
        split at hy
        · rename_i hsp
          rw [nameDict_get h0 es hn, hm] at hy
          rw [he, hy.2] at he'
          have := append_left_cancel he'
          subst this
          have hsn := (toList_pos s).mp hsp
          rw [List.filter_cons] at hs
          simp [hsn] at hs
          exact hs.1 ht
        · simp at hy

/-! ### Heaps between the start and the end of a mapping -/

/-- What the writing of mapped documents keeps of the heap `h0`: everything of old objects but the
parents of elements. -/
structure Src (h0 h : Heap) : Prop where
  inv : Inv h
  aside : Aside (fun _ => False) h0 h
  frame : ∀ j, j < h0.next → (h0.obj j).cls.isContainer = true → h.obj j = h0.obj j

theorem Src.refl {h : Heap} (I : Inv h) : Src h h := ⟨I, Aside.refl _ _, fun _ _ _ => rfl⟩

theorem Src.trans {a b c : Heap} (x : Src a b) (y : Src b c) : Src a c :=
  ⟨y.inv, x.aside.trans y.aside, fun j hj hc => by
    have h1 := x.frame j hj hc
    rw [y.frame j (Nat.lt_of_lt_of_le hj x.aside.next) (by rw [h1]; exact hc), h1]⟩

theorem parentPath_frame {h0 h : Heap} (I : Inv h0)
    (fr : ∀ j, j < h0.next → (h0.obj j).cls.isContainer = true → h.obj j = h0.obj j) {c x : Nat}
    {ns : List String} (p : ParentPath h0 c ns x) (hx : x < h0.next)
    (hc : (h0.obj x).cls.isContainer = true) : ParentPath h c ns x := by
  have hitem : ∀ {x p : Nat}, (h0.obj x).parent = some p → (h0.obj x).cls.isContainer = true →
      p < h0.next ∧ (h0.obj p).cls.isContainer = true := by
    intro x p hp hc
    have hi : (h0.obj x).cls.isItem = true := by
      cases hcl : (h0.obj x).cls with
      | collection => have := I.coll_parent x hcl; rw [hp] at this; simp at this
      | package => rfl
      | element k => rfl
      | member k => rw [hcl] at hc; simp [Cls.isContainer] at hc
    have := I.item_parent x p hp hi
    exact ⟨this.1, this.2.1⟩
  induction p with
  | @top x h1 h2 =>
    have e := fr x hx hc
    have hq := hitem h1 hc
    have e2 := fr c hq.1 hq.2
    rw [← e]
    exact .top (by rw [e]; exact h1) (by rw [e2]; exact h2)
  | @under ns p x hp h1 ih =>
    have e := fr x hx hc
    have hq := hitem h1 hc
    rw [← e]
    exact .under (ih hq.1 hq.2) (by rw [e]; exact h1)

/-- The result of building the path and filling its last package. -/
theorem made_filled {h h2 h3 : Heap} (I : Inv h) {ns : List String} {np : Nat} {l : List Nat}
    (hns : ns ≠ []) (M : Made (h.alloc .collection "") h2 h.next ns np) (F : Filled h2 h3 np l)
    (hl : ∀ y ∈ l, isElement h y = true) :
    Src h h3 ∧ Only h3 h.next ns np ∧ (h3.obj np).packages = [] ∧ (h3.obj np).elements = l ∧
    (h3.obj h.next).cls = .collection ∧
    (∀ j, j < h.next → j ∉ l → h3.obj j = h.obj j) ∧
    (∀ y ∈ l, ParentPath h3 h.next (ns ++ [(h.obj y).name]) y) := by
  have hnx : (h.alloc .collection "").next = h.next + 1 := rfl
  have hnp := M.new
  have hmade : ∀ j, j < h.next → h2.obj j = h.obj j := by
    intro j hj
    rw [M.frame j (by omega) (by omega), alloc_obj_ne _ _ _ (by omega)]
  have hlt : ∀ y ∈ l, y < h.next := fun y hy => isElement_lt I (hl y hy)
  have hfr : ∀ j, j < h.next → j ∉ l → h3.obj j = h.obj j := by
    intro j hj hjl
    rw [F.frame j (by omega) hjl, hmade j hj]
  have hA : Aside (fun _ => False) h h3 := by
    have hb : ∀ i, i < h.next → bare (h3.obj i) = bare (h.obj i) := by
      intro i hi
      rw [F.bare i (by omega), hmade i hi]
    exact ⟨by rw [F.next]; omega, fun i hi => (bare_fields (hb i hi)).1,
      fun i hi => (bare_fields (hb i hi)).2.1, fun i hi _ => hb i hi⟩
  have hdoc : (h3.obj h.next).cls = .collection := by
    have h1 : h.next ≠ np := by omega
    rw [(bare_fields (F.bare h.next h1)).1, M.self.1, alloc_obj_new]
  have honly : ∀ (ms : List String) (c : Nat), c ≠ np ∨ ms = [] →
      (∀ p, Only h2 c ms p → Only h3 c ms p) := by
    intro ms
    induction ms with
    | nil => intro c _ p hp; exact hp
    | cons n ms ih =>
      intro c hc p hp
      have hcn : c ≠ np := by rcases hc with hc | hc; exact hc; simp at hc
      obtain ⟨q, q1, q2, q3, q4, q5, q6⟩ := hp
      have hbc := bare_fields (F.bare c hcn)
      by_cases hq : q = np
      · subst hq
        have hms : ms = [] := by
          cases ms with
          | nil => rfl
          | cons k ks =>
            obtain ⟨r, r1, _⟩ := q6
            rw [M.empty.1] at r1; simp at r1
        subst hms
        exact ⟨q, by rw [hbc.2.2.1]; exact q1, by rw [hbc.2.2.2.1]; exact q2,
          by rw [F.keepNp.2.1]; exact q3, by rw [F.keepNp.1]; exact q4, by rw [F.keepNp.2.2]; exact q5,
          q6⟩
      · have hqb := bare_fields (F.bare q hq)
        have hql : q ∉ l := by
          intro hql
          obtain ⟨k, hk⟩ := isElement_iff.mp (hl q hql)
          rw [hmade q (hlt q hql), hk] at q4; simp at q4
        have hqq := F.frame q hq hql
        exact ⟨q, by rw [hbc.2.2.1]; exact q1, by rw [hbc.2.2.2.1]; exact q2,
          by rw [hqq]; exact q3, by rw [hqq]; exact q4, by rw [hqq]; exact q5, ih q (.inl hq) p q6⟩
  have hO : Only h3 h.next ns np := honly ns h.next (.inl (by omega)) np M.only
  have hP : ParentPath h3 h.next ns np := by
    have := only_path ns h.next np h.next [] hO (.inr ⟨rfl, rfl, hdoc⟩) hns
    simpa using this
  refine ⟨⟨F.inv, hA, ?_⟩, hO, by rw [F.packages]; exact M.empty.1, ?_, hdoc, hfr, ?_⟩
  · intro j hj hjc
    apply hfr j hj
    intro hjl
    obtain ⟨k, hk⟩ := isElement_iff.mp (hl j hjl)
    rw [hk] at hjc; simp [Cls.isContainer] at hjc
  · rw [F.elements, M.empty.2.1]; simp
  · intro y hy
    rw [← hA.name y (hlt y hy)]
    exact .under hP (F.parent y hy)

/-- One round, as far as the call that appends the elements. -/
theorem writeMatched_core {w : DocWs} (I : Inv w.heap) {pkg c : Nat} {ns : List String}
    (hp : ParentPath w.heap c ns pkg) (hpc : (w.heap.obj pkg).cls = .package)
    (g : ∀ n ∈ ns, GoodName n) (emap : Dict Nat) (suffixes : List String) (m : Nat)
    (hl : ∀ y ∈ m :: extras w.heap emap m suffixes, y < w.heap.next) :
    ∃ h2 np, Made (w.heap.alloc .collection "") h2 w.heap.next ns np ∧
      writeMatched w pkg emap suffixes m =
        (match appendAll h2 np (sortByName w.heap (m :: extras w.heap emap m suffixes)) with
        | (h3, Except.error e) => ({ w with heap := h3 }, Except.error e)
        | (h3, Except.ok ()) =>
          ({ w with heap := h3,
                    out := w.out ++ [⟨outPath w ((h3.obj m).name ++ ".arxml"), w.heap.next, h3⟩] },
            Except.ok ())) := by
  have I1 := inv_alloc I .collection ""
  have hlt := parentPath_lt I hp
  have hp1 : ParentPath (w.heap.alloc .collection "") c ns pkg :=
    parentPath_frame I (fun j hj _ => alloc_obj_ne _ _ _ (by omega)) hp hlt
      (by rw [hpc]; rfl)
  have hE : Empty (w.heap.alloc .collection "") w.heap.next := by
    refine ⟨?_, ?_, ?_⟩ <;> rw [alloc_obj_new]
  obtain ⟨h2, np, e1, M⟩ := collectionMake1_fresh ns (parentPath_ne_nil hp) I1
    (c := w.heap.next) (Nat.lt_succ_self _) (by rw [alloc_obj_new]) hE g
  refine ⟨h2, np, M, ?_⟩
  have hnx : (w.heap.alloc .collection "").next = w.heap.next + 1 := rfl
  have hsort : sortByName h2 (m :: extras w.heap emap m suffixes) =
      sortByName w.heap (m :: extras w.heap emap m suffixes) := by
    apply sortByName_congr
    intro x hx
    have := hl x hx
    rw [M.frame x (by omega) (by omega), alloc_obj_ne _ _ _ (by omega)]
  unfold writeMatched
  simp only [refText_path I1 hp1, e1, hsort]
  rcases appendAll h2 np (sortByName w.heap (m :: extras w.heap emap m suffixes)) with ⟨h3, o⟩
  cases o <;> rfl

/-- One round of the loop succeeds and writes the document the specification asks for. -/
theorem writeMatched_ok {h0 : Heap} (I0 : Inv h0) {w : DocWs} (S : Src h0 w.heap) {pkg c : Nat}
    {ns : List String} (hp : ParentPath h0 c ns pkg) (hpc : (h0.obj pkg).cls = .package)
    (g : ∀ n ∈ ns, GoodName n) {suffixes : List String} (hs : (suffixes.filter (· ≠ "")).Nodup)
    {m : Nat} (hm : m ∈ (h0.obj pkg).elements) :
    ∃ h1 wr, writeMatched w pkg (nameDict h0 (h0.obj pkg).elements) suffixes m =
        ({ w with heap := h1, out := w.out ++ [wr] }, .ok ()) ∧
      wr.filePath = outPath w ((h0.obj m).name ++ ".arxml") ∧
      DocOf h0 (h0.obj pkg).elements suffixes ns m wr ∧ Src h0 h1 := by
  have hplt := parentPath_lt I0 hp
  have hp1 := parentPath_frame I0 S.frame hp hplt (by rw [hpc]; rfl)
  have hpc1 : (w.heap.obj pkg).cls = .package := by rw [S.aside.cls _ hplt]; exact hpc
  have hn := elems_nodup I0 pkg
  have hmlt := (I0.elems_cls pkg m hm).1
  have hmn := S.aside.name m hmlt
  have hel0 : ∀ y ∈ m :: extras w.heap (nameDict h0 (h0.obj pkg).elements) m suffixes,
      y ∈ (h0.obj pkg).elements := by
    intro y hy
    rcases List.mem_cons.mp hy with rfl | hy
    · exact hm
    · exact ((extras_mem hn hmn y).mp hy).1
  have hlt0 : ∀ y ∈ m :: extras w.heap (nameDict h0 (h0.obj pkg).elements) m suffixes, y < h0.next :=
    fun y hy => (I0.elems_cls pkg y (hel0 y hy)).1
  have hel : ∀ y ∈ m :: extras w.heap (nameDict h0 (h0.obj pkg).elements) m suffixes,
      isElement w.heap y = true := by
    intro y hy
    obtain ⟨k, hk⟩ := (I0.elems_cls pkg y (hel0 y hy)).2
    exact isElement_iff.mpr ⟨k, by rw [S.aside.cls _ (hlt0 y hy)]; exact hk⟩
  have hnd := extras_nodup hn hmn suffixes hs
  have hmem := extras_mem (suffixes := suffixes) hn hmn
  obtain ⟨h2, np, M, e⟩ := writeMatched_core S.inv hp1 hpc1 g (nameDict h0 (h0.obj pkg).elements)
    suffixes m (fun y hy => isElement_lt S.inv (hel y hy))
  generalize hlist : m :: extras w.heap (nameDict h0 (h0.obj pkg).elements) m suffixes = list at *
  have hperm := sortByName_perm w.heap list
  have hsorted := sortByName_sorted w.heap list
  have hel' : ∀ y ∈ sortByName w.heap list, isElement w.heap y = true :=
    fun y hy => hel y (hperm.mem_iff.mp hy)
  generalize hsl : sortByName w.heap list = sl at *
  have hwlt : ∀ y ∈ sl, y < w.heap.next := fun y hy => isElement_lt S.inv (hel' y hy)
  have hnx : (w.heap.alloc .collection "").next = w.heap.next + 1 := rfl
  have hmade : ∀ j, j < w.heap.next → h2.obj j = w.heap.obj j := by
    intro j hj
    rw [M.frame j (by omega) (by omega), alloc_obj_ne _ _ _ (by omega)]
  have hel2 : ∀ y ∈ sl, isElement h2 y = true := by
    intro y hy
    obtain ⟨k, hk⟩ := isElement_iff.mp (hel' y hy)
    exact isElement_iff.mpr ⟨k, by rw [hmade y (hwlt y hy)]; exact hk⟩
  have hnames : ∀ y ∈ sl, (h2.obj y).name = (h0.obj y).name := by
    intro y hy
    rw [hmade y (hwlt y hy), S.aside.name y (hlt0 y (hperm.mem_iff.mp hy))]
  have hnd2 : (sl.map fun x => (h2.obj x).name).Nodup := by
    have : (sl.map fun x => (h2.obj x).name) = sl.map fun x => (h0.obj x).name :=
      List.map_congr_left hnames
    rw [this]
    exact (hperm.map _).nodup_iff.mpr hnd
  obtain ⟨h3, ha⟩ := appendAll_ok sl (h := h2) (np := np) hel2 hnd2
    (by intro x _; rw [M.empty.2.2]; rfl)
  have F := appendAll_filled sl M.inv M.new.2 M.cls hel2 h3 ha
  have hnsne := parentPath_ne_nil hp
  obtain ⟨S3, hO, hpk, hels, hdoc, hfr, hpaths⟩ := made_filled S.inv hnsne M F hel'
  have S03 := S.trans S3
  rw [ha] at e
  simp only at e
  refine ⟨h3, _, e, ?_, ⟨hdoc, ⟨np, sl, hO, hpk, hels, ?_, ?_, ?_, ?_⟩, ?_⟩, S03⟩
  · simp only
    rw [S03.aside.name m hmlt]
  · intro y
    rw [hperm.mem_iff, ← hlist, List.mem_cons, hmem y]
    exact Iff.rfl
  · exact nodup_of_map hnd2
  · rw [List.pairwise_iff_forall_sublist] at hsorted ⊢
    intro a b hab
    have h1 := hsorted hab
    have ha' : a ∈ sl := hab.subset (by simp)
    have hb' : b ∈ sl := hab.subset (by simp)
    rw [S.aside.name a (hlt0 a (hperm.mem_iff.mp ha')),
      S.aside.name b (hlt0 b (hperm.mem_iff.mp hb'))] at h1
    exact h1
  · intro y hy
    have := hpaths y hy
    rw [S.aside.name y (hlt0 y (hperm.mem_iff.mp hy))] at this
    exact refReturns_of_path S3.inv this
  · intro i hi
    exact S03.aside.same i hi (by simp)

/-- The whole loop. -/
theorem writeAllMatched_ok {h0 : Heap} (I0 : Inv h0) {pkg c : Nat}
    {ns : List String} (hp : ParentPath h0 c ns pkg) (hpc : (h0.obj pkg).cls = .package)
    (g : ∀ n ∈ ns, GoodName n) {suffixes : List String} (hs : (suffixes.filter (· ≠ "")).Nodup) :
    ∀ (ms : List Nat) (w : DocWs), Src h0 w.heap → (∀ m ∈ ms, m ∈ (h0.obj pkg).elements) →
    ∃ h1 wrs, writeAllMatched w pkg (nameDict h0 (h0.obj pkg).elements) suffixes ms =
        ({ w with heap := h1, out := w.out ++ wrs }, .ok ()) ∧
      wrs.length = ms.length ∧
      (∀ (i : Nat) (m : Nat) (wr : Written), ms[i]? = some m → wrs[i]? = some wr →
        wr.filePath = outPath w ((h0.obj m).name ++ ".arxml") ∧
        DocOf h0 (h0.obj pkg).elements suffixes ns m wr) ∧ Src h0 h1 := by
  intro ms
  induction ms with
  | nil =>
    intro w S _
    exact ⟨w.heap, [], by simp [writeAllMatched], rfl, by simp, S⟩
  | cons m ms ih =>
    intro w S hms
    obtain ⟨h1, wr, e1, e2, e3, S1⟩ := writeMatched_ok I0 S hp hpc g hs (hms m (by simp))
    obtain ⟨h2, wrs, f1, f2, f3, S2⟩ := ih { w with heap := h1, out := w.out ++ [wr] } S1
      (fun x hx => hms x (by simp [hx]))
    refine ⟨h2, wr :: wrs, ?_, by simp [f2], ?_, S2⟩
    · unfold writeAllMatched
      rw [e1]
      simp only
      rw [f1]
      simp
    · intro i x wr' hx hwr
      cases i with
      | zero =>
        simp only [List.getElem?_cons_zero, Option.some.injEq] at hx hwr
        subst hx; subst hwr
        exact ⟨e2, e3⟩
      | succ i =>
        simp only [List.getElem?_cons_succ] at hx hwr
        exact f3 i x wr' hx hwr

theorem matched_list {h : Heap} (I : Inv h) (pkg : Nat) (accepts : Nat → Bool) :
    ((nameDict h ((h.obj pkg).elements.filter accepts)).map (·.2)) =
      (h.obj pkg).elements.filter accepts := by
  rw [nameDict_eq]
  · rw [List.map_map]; simp [Function.comp_def]
  · exact List.Nodup.sublist (List.Sublist.map _ List.filter_sublist) (elems_nodup I pkg)

end Verif.Work
