import Verif.Work.DocsLemmas
set_option linter.unusedSimpArgs false
set_option linter.unusedVariables false
namespace Verif.Work
open Verif.Py Verif.Pkg Verif.Pkg.Spec

/-! ### Specification: what a document contains -/

/-- From `c` one single path of packages, with the given names and nothing else on the way, leads
to `last`. -/
def Only (h : Heap) : Nat → List String → Nat → Prop
  | c, [], last => last = c
  | c, n :: ns, last => ∃ p, (h.obj c).packages = [p] ∧ (h.obj c).elements = [] ∧
      (h.obj p).name = n ∧ (h.obj p).cls = .package ∧ (h.obj p).parent = some c ∧ Only h p ns last

theorem relRef_parts (n : String) (ns : List String) (g : ∀ m ∈ n :: ns, GoodName m) :
    startsWithL '/' (relRef (n :: ns)).toList = false ∧
    partL '/' (relRef (n :: ns)).toList = (n.toList, (relRef ns).toList) ∧
    ((relRef ns).toList = [] ↔ ns = []) := by
  have gn := g n (by simp)
  refine ⟨by rw [relRef_toList]; exact startsWith_good gn _, ?_⟩
  cases ns with
  | nil =>
    refine ⟨?_, by simp [relRef]⟩
    rw [relRef_toList]; simp [absRef, relRef]; rw [partL_no_sep _ _ gn.2]
  | cons m ms =>
    refine ⟨by rw [relRef_cons_toList, partL_append _ _ _ gn.2], ?_⟩
    constructor
    · intro e; exact absurd e (relRef_toList_ne (g m (by simp)) ms)
    · simp

/-- A container with nothing in it. -/
def Empty (h : Heap) (c : Nat) : Prop :=
  (h.obj c).packages = [] ∧ (h.obj c).elements = [] ∧ (h.obj c).map = []

/-- The result of building a path of packages below an empty container. -/
structure Made (h h' : Heap) (c : Nat) (ns : List String) (x : Nat) : Prop where
  only : Only h' c ns x
  empty : Empty h' x
  cls : (h'.obj x).cls = .package
  new : h.next ≤ x ∧ x < h'.next
  frame : ∀ j, j < h.next → j ≠ c → h'.obj j = h.obj j
  self : (h'.obj c).cls = (h.obj c).cls ∧ (h'.obj c).name = (h.obj c).name ∧
    (h'.obj c).parent = (h.obj c).parent
  next : h.next ≤ h'.next
  inv : Inv h'

theorem made_created {h h1 : Heap} {c : Nat} {n : String} (I : Inv h) (hc : c < h.next)
    (hcc : (h.obj c).cls.isContainer = true) (hE : Empty h c) (C : Created h h1 c n) :
    Made h h1 c [n] h.next := by
  have hcne : c ≠ h.next := by omega
  have hne : h.next ≠ c := by omega
  have hd : dictHas (h.obj c).map n = false := by rw [hE.2.2]; rfl
  have hnew := alloc_obj_new h .package n
  have I1 := inv_created I hc hcc hd C
  have hall : (h.alloc .package n).obj c = h.obj c := alloc_obj_ne _ _ _ hcne
  refine ⟨?_, ?_, created_new_cls C, by rw [created_next C]; omega, ?_, ?_,
    by rw [created_next C]; omega, I1⟩
  · refine ⟨h.next, ?_, ?_, ?_, created_new_cls C, ?_, rfl⟩
    · rw [C.packages, hnew, hall, hE.1]; simp
    · rw [C.elements, hnew, hall, hE.2.1]; simp
    · rw [C.name, hnew]
    · rw [C.parent]; simp
  · refine ⟨?_, ?_, ?_⟩
    · rw [C.packages]; simp [hne, hnew]
    · rw [C.elements]; simp [hne, hnew]
    · rw [C.map]; simp [hne, hnew]
  · intro j hj hjc
    rw [C.other j hjc (by omega), alloc_obj_ne _ _ _ (by omega)]
  · refine ⟨by rw [C.cls, hall], by rw [C.name, hall], ?_⟩
    rw [C.parent]; simp [hcne, hall]

theorem made_cons {h h1 h2 : Heap} {c p x : Nat} {n : String} {ns : List String}
    (hc : c < h.next) (a : Made h h1 c [n] p) (b : Made h1 h2 p ns x) : Made h h2 c (n :: ns) x := by
  obtain ⟨q, q1, q2, q3, q4, q5, q6⟩ := a.only
  have q6' : p = q := q6
  subst q6'
  have hcp : c ≠ p := by have := a.new.1; omega
  have hcc := b.frame c (Nat.lt_of_lt_of_le hc a.next) hcp
  refine ⟨?_, b.empty, b.cls, ⟨Nat.le_trans a.next b.new.1, b.new.2⟩, ?_, ?_,
    Nat.le_trans a.next b.next, b.inv⟩
  · refine ⟨p, by rw [hcc]; exact q1, by rw [hcc]; exact q2, by rw [b.self.2.1]; exact q3,
      by rw [b.self.1]; exact q4, by rw [b.self.2.2]; exact q5, b.only⟩
  · intro j hj hjc
    have := a.new.1
    rw [b.frame j (Nat.lt_of_lt_of_le hj a.next) (by omega), a.frame j hj hjc]
  · rw [hcc]; exact a.self

theorem packageMake_fresh : ∀ (ns : List String) (n : String) {h : Heap} (_ : Inv h) {c : Nat}
    (_ : c < h.next) (_ : (h.obj c).cls = .package) (_ : Empty h c) (fuel : Nat),
    (∀ m ∈ n :: ns, GoodName m) → (relRef (n :: ns)).toList.length + 1 ≤ fuel →
    ∃ h' x, packageMake fuel h c (relRef (n :: ns)).toList = (h', .ok x) ∧ Made h h' c (n :: ns) x := by
  intro ns
  induction ns with
  | nil =>
    intro n h I c hc hcc hE fuel g hf
    cases fuel with
    | zero => omega
    | succ fuel =>
      obtain ⟨p1, p2, p3⟩ := relRef_parts n [] g
      unfold packageMake
      rw [p1, p2]
      have hr0 : (relRef ([] : List String)).toList = [] := by simp [relRef]
      simp only [Bool.false_eq_true, if_false, String.ofList_toList, hE.2.2, dictGet, hr0, ne_eq,
        not_true_eq_false]
      rcases packageCreate_cases h c n hc with ⟨h1, _⟩ | ⟨hd, C, h2⟩
      · rw [hE.2.2] at h1; simp [dictHas, dictGet] at h1
      · have M := made_created I hc (by simp [hcc, Cls.isContainer]) hE C
        have hr : packageCreate h c n = ((packageCreate h c n).1, .ok (.obj h.next)) := Prod.ext rfl h2
        generalize (packageCreate h c n).1 = r1 at *
        rw [hr]
        exact ⟨r1, h.next, rfl, M⟩
  | cons m ms ih =>
    intro n h I c hc hcc hE fuel g hf
    cases fuel with
    | zero => omega
    | succ fuel =>
      obtain ⟨p1, p2, p3⟩ := relRef_parts n (m :: ms) g
      have hlen : (relRef (m :: ms)).toList.length + 1 ≤ fuel := by
        have h1 : (partL '/' (relRef (n :: m :: ms)).toList).2 ≠ [] := by
          rw [p2]; intro e; have := p3.1 e; simp at this
        have := partL_length_lt '/' _ h1
        rw [p2] at this
        simp only at this
        omega
      unfold packageMake
      rw [p1, p2]
      have hne : (relRef (m :: ms)).toList ≠ [] := fun e => by have := p3.1 e; simp at this
      simp only [Bool.false_eq_true, if_false, String.ofList_toList, hE.2.2, dictGet, ne_eq, hne,
        not_false_eq_true, if_true]
      rcases packageCreate_cases h c n hc with ⟨h1, _⟩ | ⟨hd, C, h2⟩
      · rw [hE.2.2] at h1; simp [dictHas, dictGet] at h1
      · have M := made_created I hc (by simp [hcc, Cls.isContainer]) hE C
        have hr : packageCreate h c n = ((packageCreate h c n).1, .ok (.obj h.next)) := Prod.ext rfl h2
        generalize (packageCreate h c n).1 = r1 at *
        rw [hr]
        simp only
        obtain ⟨h', x, e1, e2⟩ := ih m M.inv M.new.2 M.cls M.empty fuel
          (fun k hk => g k (by simp only [List.mem_cons] at hk ⊢; exact .inr hk)) hlen
        exact ⟨h', x, e1, made_cons hc M e2⟩

theorem stripLead_absRef (n : String) (ns : List String) :
    stripLead '/' (absRef (n :: ns)).toList = (relRef (n :: ns)).toList := by
  rw [absRef_eq_slash_rel]
  simp [stripLead]

theorem collectionMake1_fresh (ns : List String) (hns : ns ≠ []) {h : Heap} (I : Inv h) {c : Nat}
    (hc : c < h.next) (hcc : (h.obj c).cls = .collection) (hE : Empty h c)
    (g : ∀ m ∈ ns, GoodName m) :
    ∃ h' x, collectionMake1 h c (absRef ns).toList = (h', .ok x) ∧ Made h h' c ns x := by
  cases ns with
  | nil => exact absurd rfl hns
  | cons n ns =>
    obtain ⟨p1, p2, p3⟩ := relRef_parts n ns g
    unfold collectionMake1
    simp only [stripLead_absRef, p2, String.ofList_toList, hE.2.2, dictGet]
    rcases collectionCreate_cases h c n hc with ⟨h1, _⟩ | ⟨hd, C, h2⟩
    · rw [hE.2.2] at h1; simp [dictHas, dictGet] at h1
    · have M := made_created I hc (by simp [hcc, Cls.isContainer]) hE C
      have hr : collectionCreate h c n = ((collectionCreate h c n).1, .ok (.obj h.next)) :=
        Prod.ext rfl h2
      generalize (collectionCreate h c n).1 = r1 at *
      rw [hr]
      simp only
      cases ns with
      | nil =>
        have hr0 : (relRef ([] : List String)).toList = [] := by simp [relRef]
        simp only [hr0, ne_eq, not_true_eq_false, if_false]
        exact ⟨r1, h.next, rfl, M⟩
      | cons m ms =>
        have hne : (relRef (m :: ms)).toList ≠ [] := fun e => by have := p3.1 e; simp at this
        simp only [ne_eq, hne, not_false_eq_true, if_true]
        obtain ⟨h', x, e1, e2⟩ := packageMake_fresh ms m M.inv M.new.2 M.cls M.empty _
          (fun k hk => g k (by simp only [List.mem_cons] at hk ⊢; exact .inr hk)) (Nat.le_refl _)
        exact ⟨h', x, e1, made_cons hc M e2⟩

/-- The parent path of the last package. -/
theorem only_path {h : Heap} : ∀ (ns : List String) (c x root : Nat) (pre : List String),
    Only h c ns x → (ParentPath h root pre c ∨ (pre = [] ∧ c = root ∧ (h.obj root).cls = .collection)) →
    ns ≠ [] → ParentPath h root (pre ++ ns) x := by
  intro ns
  induction ns with
  | nil => intro c x root pre _ _ h; exact absurd rfl h
  | cons n ns ih =>
    intro c x root pre ho hp _
    obtain ⟨p, _, _, hn, hcls, hpar, hrest⟩ := ho
    have hpp : ParentPath h root (pre ++ [n]) p := by
      rcases hp with hp | ⟨rfl, rfl, hc⟩
      · rw [← hn]; exact .under hp hpar
      · rw [← hn]; exact .top hpar hc
    cases ns with
    | nil =>
      have : x = p := hrest
      subst this; exact hpp
    | cons m ms =>
      have := ih p x root (pre ++ [n]) hrest (.inl hpp) (by simp)
      simpa using this

/-! ### Appending a list of elements -/

/-- The elements `es` have been put into package `np`. -/
structure Filled (h h' : Heap) (np : Nat) (es : List Nat) : Prop where
  next : h'.next = h.next
  elements : (h'.obj np).elements = (h.obj np).elements ++ es
  packages : (h'.obj np).packages = (h.obj np).packages
  keepNp : (h'.obj np).cls = (h.obj np).cls ∧ (h'.obj np).name = (h.obj np).name ∧
    (h'.obj np).parent = (h.obj np).parent
  parent : ∀ x ∈ es, (h'.obj x).parent = some np
  frame : ∀ j, j ≠ np → j ∉ es → h'.obj j = h.obj j
  bare : ∀ j, j ≠ np → bare (h'.obj j) = bare (h.obj j)
  inv : Inv h'

theorem filled_nil {h : Heap} (I : Inv h) (np : Nat) : Filled h h np [] :=
  ⟨rfl, by simp, rfl, ⟨rfl, rfl, rfl⟩, by simp, fun _ _ _ => rfl, fun _ _ => rfl, I⟩

theorem appendAll_filled : ∀ (es : List Nat) {h : Heap} (I : Inv h) {np : Nat} (_ : np < h.next)
    (_ : (h.obj np).cls = .package) (_ : ∀ x ∈ es, isElement h x = true) (h' : Heap)
    (_ : appendAll h np es = (h', .ok ())), Filled h h' np es := by
  intro es
  induction es with
  | nil =>
    intro h I np _ _ _ h' hr
    simp only [appendAll, Prod.mk.injEq, and_true] at hr
    subst hr; exact filled_nil I np
  | cons x es ih =>
    intro h I np hnp hcls hel h' hres
    have hx := hel x (by simp)
    obtain ⟨k, hk⟩ := isElement_iff.mp hx
    have hxl := isElement_lt I hx
    have hxne : x ≠ np := by intro e; subst e; rw [hcls] at hk; simp at hk
    unfold appendAll at hres
    rcases packageAppend_cases h np x with ⟨_, e, he⟩ | ⟨A, hok, _, _⟩
    · have hr : packageAppend h np x = ((packageAppend h np x).1, .error e) := Prod.ext rfl he
      generalize (packageAppend h np x).1 = h1 at *
      rw [hr] at hres
      simp at hres
    · have I1 := inv_packageAppend I hnp hcls hxl
      have hr : packageAppend h np x = ((packageAppend h np x).1, .ok ()) := Prod.ext rfl hok
      generalize (packageAppend h np x).1 = h1 at *
      rw [hr] at hres
      simp only at hres
      have hk2 : (h.obj x).cls ≠ .package := by rw [hk]; simp
      have F := ih I1 (by rw [A.next]; exact hnp) (by rw [A.cls]; exact hcls)
        (by
          intro y hy
          obtain ⟨k', hk'⟩ := isElement_iff.mp (hel y (by simp [hy]))
          exact isElement_iff.mpr ⟨k', by rw [A.cls]; exact hk'⟩) h' hres
      have hbare1 : ∀ j, j ≠ np → Verif.Work.bare (h1.obj j) = Verif.Work.bare (h.obj j) := by
        intro j hj
        by_cases hjl : j < h.next
        · exact (aside_attached A).same j hjl hj
        · rw [A.other j hj (by omega)]
      refine ⟨by rw [F.next, A.next], ?_, ?_, ?_, ?_, ?_, ?_, F.inv⟩
      · rw [F.elements, A.elements]; simp [hk2]
      · rw [F.packages, A.packages]; simp [hk2]
      · rw [F.keepNp.1, F.keepNp.2.1, F.keepNp.2.2, A.cls, A.name, A.parent]
        simp [Ne.symm hxne]
      · intro y hy
        rcases List.mem_cons.mp hy with rfl | hy
        · by_cases hin : y ∈ es
          · exact F.parent y hin
          · rw [F.frame y hxne hin, A.parent]; simp
        · exact F.parent y hy
      · intro j h1' h2'
        simp only [List.mem_cons, not_or] at h2'
        rw [F.frame j h1' h2'.2, A.other j h1' h2'.1]
      · intro j hj
        rw [F.bare j hj, hbare1 j hj]

theorem appendAll_ok : ∀ (es : List Nat) {h : Heap} {np : Nat}
    (_ : ∀ x ∈ es, isElement h x = true)
    (_ : (es.map fun x => (h.obj x).name).Nodup)
    (_ : ∀ x ∈ es, dictGet (h.obj np).map (h.obj x).name = none),
    ∃ h', appendAll h np es = (h', .ok ()) := by
  intro es
  induction es with
  | nil => intro h np _ _ _; exact ⟨h, rfl⟩
  | cons x es ih =>
    intro h np hel hnd hfree
    obtain ⟨k, hk⟩ := isElement_iff.mp (hel x (by simp))
    rcases packageAppend_cases h np x with ⟨_, e, he⟩ | ⟨A, hok, _, _⟩
    · have : dictHas (h.obj np).map (h.obj x).name = false := by
        simp [dictHas, hfree x (by simp)]
      simp [packageAppend, hk, this] at he
    · have hr : packageAppend h np x = ((packageAppend h np x).1, .ok ()) := Prod.ext rfl hok
      generalize (packageAppend h np x).1 = h1 at *
      simp only [List.map_cons, List.nodup_cons] at hnd
      obtain ⟨h', e1⟩ := ih (h := h1) (np := np)
        (by
          intro y hy
          obtain ⟨k', hk'⟩ := isElement_iff.mp (hel y (by simp [hy]))
          exact isElement_iff.mpr ⟨k', by rw [A.cls]; exact hk'⟩)
        (by simp only [A.name]; exact hnd.2)
        (by
          intro y hy
          rw [A.map, A.name]
          simp only [if_true]
          rw [dictGet_set]
          have hne : (h.obj x).name ≠ (h.obj y).name := by
            intro e
            exact hnd.1 (List.mem_map.mpr ⟨y, hy, e.symm⟩)
          rw [if_neg hne]
          exact hfree y (by simp [hy]))
      exact ⟨h', by unfold appendAll; rw [hr]; exact e1⟩

theorem aside_appendAll (es : List Nat) : ∀ (h : Heap) (np : Nat),
    Aside (fun i => i = np) h (appendAll h np es).1 ∧ Keep h (appendAll h np es).1 := by
  induction es with
  | nil => intro h np; exact ⟨Aside.refl _ _, Keep.refl _⟩
  | cons x es ih =>
    intro h np
    have A := aside_packageAppend h np x
    have K := keep_packageAppend h np x
    unfold appendAll
    rcases hq : packageAppend h np x with ⟨h1, o⟩
    rw [hq] at A K
    cases o with
    | error e => exact ⟨A, K⟩
    | ok u => exact ⟨A.trans (ih h1 np).1, K.trans (ih h1 np).2⟩

theorem inv_appendAll (es : List Nat) : ∀ {h : Heap} (_ : Inv h) {np : Nat} (_ : np < h.next)
    (_ : (h.obj np).cls = .package) (_ : ∀ x ∈ es, x < h.next), Inv (appendAll h np es).1 := by
  induction es with
  | nil => intro h I np _ _ _; exact I
  | cons x es ih =>
    intro h I np hnp hcls hl
    have I1 := inv_packageAppend I hnp hcls (hl x (by simp))
    have A := aside_packageAppend h np x
    unfold appendAll
    rcases hq : packageAppend h np x with ⟨h1, o⟩
    rw [hq] at I1 A
    cases o with
    | error e => exact I1
    | ok u =>
      exact ih I1 (Nat.lt_of_lt_of_le hnp A.next) (by rw [A.cls _ hnp]; exact hcls)
        (fun y hy => Nat.lt_of_lt_of_le (hl y (by simp [hy])) A.next)

/-! ### make_packages touches only what is below -/

theorem packageMake_frame (N : Nat) : ∀ (fuel : Nat) {h : Heap} (_ : Inv h) {c : Nat}
    (_ : c < h.next) (_ : (h.obj c).cls = .package) (ref : List Char), N ≤ c →
    (∀ i, N ≤ i → ∀ k j, dictGet (h.obj i).map k = some j → N ≤ j) →
    (∀ j, j < N → (packageMake fuel h c ref).1.obj j = h.obj j) ∧
    (∀ x, (packageMake fuel h c ref).2 = .ok x → N ≤ x)
  | 0, h, I, c, _, _, ref, _, _ => by simp [packageMake]
  | fuel + 1, h, I, c, hc, hcc, ref, hN, hmap => by
    unfold packageMake
    by_cases hs : startsWithL '/' ref = true
    · simp [hs]
    simp only [hs, Bool.false_eq_true, if_false]
    cases hg : dictGet (h.obj c).map (String.ofList (partL '/' ref).1) with
    | some x =>
      simp only
      split
      · rename_i hx
        split
        · exact packageMake_frame N fuel I (map_lt I hg) hx _ (hmap c hN _ _ hg) hmap
        · refine ⟨fun _ _ => rfl, fun y hy => ?_⟩
          simp only [Except.ok.injEq] at hy
          subst hy; exact hmap c hN _ _ hg
      · exact ⟨fun _ _ => rfl, fun y hy => by simp at hy⟩
    | none =>
      simp only
      rcases packageCreate_cases h c (String.ofList (partL '/' ref).1) hc with ⟨h1, _⟩ | ⟨hd, C, h2⟩
      · simp [dictHas, hg] at h1
      · have hI := inv_created I hc (by simp [hcc, Cls.isContainer]) hd C
        have hnx := created_next C
        have hnc := created_new_cls C
        have hmap1 : ∀ i, N ≤ i → ∀ k j, dictGet ((packageCreate h c
            (String.ofList (partL '/' ref).1)).1.obj i).map k = some j → N ≤ j := by
          intro i hi k y hy
          rw [C.map, alloc_obj_new] at hy
          by_cases hic : i = c
          · subst hic
            simp only [if_true] at hy
            rw [dictGet_set] at hy
            split at hy
            · simp only [Option.some.injEq] at hy; omega
            · rw [alloc_obj_ne _ _ _ (by omega)] at hy; exact hmap i hi k y hy
          · simp only [hic, if_false] at hy
            by_cases hin : i = h.next
            · subst hin; rw [alloc_obj_new] at hy; simp [dictGet] at hy
            · rw [alloc_obj_ne _ _ _ hin] at hy; exact hmap i hi k y hy
        have hobj : ∀ j, j < N →
            (packageCreate h c (String.ofList (partL '/' ref).1)).1.obj j = h.obj j := by
          intro j hj
          rw [C.other j (by omega) (by omega), alloc_obj_ne _ _ _ (by omega)]
        have hr : packageCreate h c (String.ofList (partL '/' ref).1) =
          ((packageCreate h c (String.ofList (partL '/' ref).1)).1, .ok (.obj h.next)) :=
          Prod.ext rfl h2
        generalize (packageCreate h c (String.ofList (partL '/' ref).1)).1 = r1 at *
        rw [hr]
        simp only
        split
        · have h3 := packageMake_frame N fuel hI (by omega) hnc (partL '/' ref).2 (by omega) hmap1
          exact ⟨fun j hj => by rw [h3.1 j hj, hobj j hj], h3.2⟩
        · refine ⟨hobj, fun y hy => ?_⟩
          simp only [Except.ok.injEq] at hy
          omega

theorem collectionMake1_frame {h : Heap} (I : Inv h) {c : Nat} (hc : c < h.next)
    (hcc : (h.obj c).cls = .collection) (ref : List Char) (hE : Empty h c) (hlast : c + 1 = h.next) :
    (∀ j, j < c → (collectionMake1 h c ref).1.obj j = h.obj j) ∧
    (∀ x, (collectionMake1 h c ref).2 = .ok x → h.next ≤ x) := by
  unfold collectionMake1
  simp only [hE.2.2, dictGet]
  generalize partL '/' (stripLead '/' ref) = parts
  rcases collectionCreate_cases h c (String.ofList parts.1) hc with ⟨h1, _⟩ | ⟨hd, C, h2⟩
  · rw [hE.2.2] at h1; simp [dictHas, dictGet] at h1
  · have hI := inv_created I hc (by simp [hcc, Cls.isContainer]) hd C
    have hnx := created_next C
    have hnc := created_new_cls C
    have hmap1 : ∀ i, h.next ≤ i → ∀ k j, dictGet ((collectionCreate h c
        (String.ofList parts.1)).1.obj i).map k = some j → h.next ≤ j := by
      intro i hi k y hy
      rw [C.map] at hy
      have : i ≠ c := by omega
      simp only [this, if_false] at hy
      by_cases hin : i = h.next
      · subst hin; rw [alloc_obj_new] at hy; simp [dictGet] at hy
      · rw [alloc_obj_ne _ _ _ hin, I.fresh i hi] at hy; simp [Obj.blank, dictGet] at hy
    have hobj : ∀ j, j < c → (collectionCreate h c (String.ofList parts.1)).1.obj j = h.obj j := by
      intro j hj
      rw [C.other j (by omega) (by omega), alloc_obj_ne _ _ _ (by omega)]
    have hr : collectionCreate h c (String.ofList parts.1) =
      ((collectionCreate h c (String.ofList parts.1)).1, .ok (.obj h.next)) := Prod.ext rfl h2
    generalize (collectionCreate h c (String.ofList parts.1)).1 = r1 at *
    rw [hr]
    simp only
    split
    · have h3 := packageMake_frame h.next (parts.2.length + 1) hI (by omega) hnc parts.2
        (Nat.le_refl _) hmap1
      exact ⟨fun j hj => by rw [h3.1 j (by omega), hobj j hj], h3.2⟩
    · refine ⟨hobj, fun y hy => ?_⟩
      simp only [Except.ok.injEq] at hy
      omega

/-! ### Sorting -/

theorem insertBy_perm (h : Heap) (x : Nat) (l : List Nat) : (insertBy h x l).Perm (x :: l) := by
  induction l with
  | nil => exact List.Perm.refl _
  | cons y ys ih =>
    unfold insertBy
    split
    · exact List.Perm.refl _
    · exact (List.Perm.cons y ih).trans (List.Perm.swap x y ys)

theorem sortByName_perm (h : Heap) (l : List Nat) : (sortByName h l).Perm l := by
  induction l with
  | nil => exact List.Perm.refl _
  | cons x xs ih => exact (insertBy_perm h x _).trans (List.Perm.cons x ih)

theorem insertBy_sorted (h : Heap) (x : Nat) (l : List Nat)
    (hs : l.Pairwise fun a b => (h.obj a).name ≤ (h.obj b).name) :
    (insertBy h x l).Pairwise fun a b => (h.obj a).name ≤ (h.obj b).name := by
  induction l with
  | nil => simp [insertBy]
  | cons y ys ih =>
    rw [List.pairwise_cons] at hs
    unfold insertBy
    split
    · rename_i hle
      have hle' : (h.obj x).name ≤ (h.obj y).name := by
        simp only [strLe, decide_eq_true_eq] at hle
        exact String.not_lt.mp hle
      rw [List.pairwise_cons]
      refine ⟨?_, List.pairwise_cons.mpr hs⟩
      intro z hz
      rcases List.mem_cons.mp hz with rfl | hz
      · exact hle'
      · exact String.le_trans hle' (hs.1 z hz)
    · rename_i hle
      have hle' : (h.obj y).name ≤ (h.obj x).name := by
        simp only [strLe, decide_eq_true_eq] at hle
        rcases String.le_total (h.obj y).name (h.obj x).name with h1 | h1
        · exact h1
        · exact absurd (String.not_lt.mpr h1) hle
      rw [List.pairwise_cons]
      refine ⟨?_, ih hs.2⟩
      intro z hz
      rcases List.mem_cons.mp ((insertBy_perm h x ys).mem_iff.mp hz) with rfl | hz
      · exact hle'
      · exact hs.1 z hz

theorem sortByName_sorted (h : Heap) (l : List Nat) :
    (sortByName h l).Pairwise fun a b => (h.obj a).name ≤ (h.obj b).name := by
  induction l with
  | nil => simp [sortByName]
  | cons x xs ih => exact insertBy_sorted h x _ ih

theorem sortByName_congr {h h' : Heap} : ∀ (l : List Nat),
    (∀ x ∈ l, (h'.obj x).name = (h.obj x).name) → sortByName h' l = sortByName h l := by
  intro l
  induction l with
  | nil => intro _; rfl
  | cons x xs ih =>
    intro hl
    unfold sortByName
    rw [ih (fun y hy => hl y (by simp [hy]))]
    have hx := hl x (by simp)
    have : ∀ (ys : List Nat), (∀ y ∈ ys, y ∈ xs) → insertBy h' x ys = insertBy h x ys := by
      intro ys
      induction ys with
      | nil => intro _; rfl
      | cons y ys ih2 =>
        intro hy
        unfold insertBy
        rw [hx, hl y (by simp [hy y (by simp)]), ih2 (fun z hz => hy z (by simp [hz]))]
    exact this _ (fun y hy => (sortByName_perm h xs).mem_iff.mp hy)

end Verif.Work
