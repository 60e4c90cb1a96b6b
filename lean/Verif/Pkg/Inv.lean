import Verif.Pkg.Model
/-
Invariant of the object graph and its preservation by every call.
-/
set_option linter.unusedSimpArgs false
set_option linter.unnecessarySimpa false
set_option linter.unusedVariables false

namespace Verif.Pkg
open Verif.Py

/-- Items of a container. -/
def contents (h : Heap) (c : Oid) : List Oid := (h.obj c).packages ++ (h.obj c).elements

/-- Members of an element, in search order. -/
def members (h : Heap) (e : Oid) : List Oid :=
  (h.obj e).slotA ++ (h.obj e).slotB ++ (h.obj e).slotC

/-- Class predicates. -/
def Cls.isContainer : Cls → Bool
  | .collection | .package => true
  | _ => false

def Cls.isItem : Cls → Bool
  | .package | .element _ => true
  | _ => false

structure Inv (h : Heap) : Prop where
  fresh : ∀ i, h.next ≤ i → h.obj i = Obj.blank
  coll_parent : ∀ i, (h.obj i).cls = .collection → (h.obj i).parent = none
  pkgs_cls : ∀ c, ∀ j ∈ (h.obj c).packages, j < h.next ∧ (h.obj j).cls = .package
  elems_cls : ∀ c, ∀ j ∈ (h.obj c).elements, j < h.next ∧ ∃ k, (h.obj j).cls = .element k
  coll_elems : ∀ c, (h.obj c).cls = .collection → (h.obj c).elements = []
  non_container : ∀ c, (h.obj c).cls.isContainer = false → contents h c = [] ∧ (h.obj c).map = []
  map_iff : ∀ c n j, dictGet (h.obj c).map n = some j ↔ j ∈ contents h c ∧ (h.obj j).name = n
  nodup : ∀ c, ((contents h c).map (fun i => (h.obj i).name)).Nodup
  item_parent : ∀ x p, (h.obj x).parent = some p → (h.obj x).cls.isItem = true →
    p < h.next ∧ (h.obj p).cls.isContainer = true ∧ x ∈ contents h p
  member_parent : ∀ x p k, (h.obj x).parent = some p → (h.obj x).cls = .member k →
    p < h.next ∧
    (x = p ∧ k = .modeTrans ∨ ∃ ek, (h.obj p).cls = .element ek ∧ x ∈ members h p)
  members_lt : ∀ e, ∀ m ∈ members h e, m < h.next ∧ ∃ k, (h.obj m).cls = .member k
  slots_swc : ∀ e, (h.obj e).cls = .element .swc → (h.obj e).slotA = [] ∧ (h.obj e).slotB = []
  slots_mode : ∀ e, (h.obj e).cls = .element .modeGroup → (h.obj e).slotC = []
  slots_impl : ∀ e, (h.obj e).cls = .element .implType →
    (h.obj e).slotB = [] ∧ (h.obj e).slotC = []
  slots_plain : ∀ e, (h.obj e).cls = .element .plain → members h e = []

theorem inv_empty : Inv Heap.empty := by
  constructor <;>
    simp [Heap.empty, Obj.blank, contents, members, dictGet, Cls.isContainer]

theorem inv_alloc {h : Heap} (I : Inv h) (cls : Cls) (name : String) :
    Inv (h.alloc cls name) := by
  have hb := I.fresh h.next (Nat.le_refl _)
  have hobj : ∀ i, i ≠ h.next → (h.alloc cls name).obj i = h.obj i := by
    intro i hi; simp [Heap.alloc, hi]
  have hnew : (h.alloc cls name).obj h.next = { cls := cls, name := name } := by
    simp [Heap.alloc]
  have hnext : (h.alloc cls name).next = h.next + 1 := rfl
  constructor
  · intro i hi
    rw [hnext] at hi
    rw [hobj i (by omega)]
    exact I.fresh i (by omega)
  · intro i hi
    by_cases e : i = h.next
    · subst e; rw [hnew]
    · rw [hobj i e] at hi ⊢; exact I.coll_parent i hi
  · intro c j hj
    by_cases e : c = h.next
    · subst e; rw [hnew] at hj; simp at hj
    · rw [hobj c e] at hj
      have := I.pkgs_cls c j hj
      rw [hobj j (by omega)]; exact ⟨by omega, this.2⟩
  · intro c j hj
    by_cases e : c = h.next
    · subst e; rw [hnew] at hj; simp at hj
    · rw [hobj c e] at hj
      have := I.elems_cls c j hj
      rw [hobj j (by omega)]; exact ⟨by omega, this.2⟩
  · intro c hc
    by_cases e : c = h.next
    · subst e; rw [hnew]
    · rw [hobj c e] at hc ⊢; exact I.coll_elems c hc
  · intro c hc
    by_cases e : c = h.next
    · subst e; simp [contents, hnew]
    · simp only [contents, hobj c e] at hc ⊢; exact I.non_container c hc
  · intro c n j
    by_cases e : c = h.next
    · subst e; simp [contents, hnew, dictGet]
    · simp only [contents, hobj c e]
      rw [I.map_iff c n j]
      constructor
      · rintro ⟨h1, h2⟩
        refine ⟨h1, ?_⟩
        have : j < h.next := by
          simp only [contents, List.mem_append] at h1
          rcases h1 with h1 | h1
          · exact (I.pkgs_cls c j h1).1
          · exact (I.elems_cls c j h1).1
        rw [hobj j (by omega)]; exact h2
      · rintro ⟨h1, h2⟩
        refine ⟨h1, ?_⟩
        have : j < h.next := by
          simp only [List.mem_append] at h1
          rcases h1 with h1 | h1
          · exact (I.pkgs_cls c j h1).1
          · exact (I.elems_cls c j h1).1
        rw [hobj j (by omega)] at h2; exact h2
  · intro c
    by_cases e : c = h.next
    · subst e; simp [contents, hnew]
    · have h1 := I.nodup c
      have : (contents (h.alloc cls name) c).map (fun i => ((h.alloc cls name).obj i).name)
          = (contents h c).map (fun i => (h.obj i).name) := by
        simp only [contents, hobj c e]
        apply List.map_congr_left
        intro j hj
        have : j < h.next := by
          simp only [List.mem_append] at hj
          rcases hj with h1 | h1
          · exact (I.pkgs_cls c j h1).1
          · exact (I.elems_cls c j h1).1
        rw [hobj j (by omega)]
      rw [this]; exact h1
  · intro x p hp hx
    by_cases e : x = h.next
    · subst e; rw [hnew] at hp; simp at hp
    · rw [hobj x e] at hp hx
      obtain ⟨h1, h2, h3⟩ := I.item_parent x p hp hx
      simp only [contents]
      rw [hobj p (by omega)]
      exact ⟨by omega, h2, h3⟩
  · intro x p k hp hx
    by_cases e : x = h.next
    · subst e; rw [hnew] at hp; simp at hp
    · rw [hobj x e] at hp hx
      obtain ⟨h1, h2⟩ := I.member_parent x p k hp hx
      simp only [members]
      rw [hobj p (by omega)]
      exact ⟨by omega, h2⟩
  · intro e' m hm
    by_cases e : e' = h.next
    · subst e; simp [members, hnew] at hm
    · simp only [members, hobj e' e] at hm
      have := I.members_lt e' m hm
      rw [hobj m (by omega)]; exact ⟨by omega, this.2⟩
  · intro e' he
    by_cases e : e' = h.next
    · subst e; simp [hnew]
    · rw [hobj e' e] at he ⊢; exact I.slots_swc e' he
  · intro e' he
    by_cases e : e' = h.next
    · subst e; simp [hnew]
    · rw [hobj e' e] at he ⊢; exact I.slots_mode e' he
  · intro e' he
    by_cases e : e' = h.next
    · subst e; simp [hnew]
    · rw [hobj e' e] at he ⊢; exact I.slots_impl e' he
  · intro e' he
    by_cases e : e' = h.next
    · subst e; simp [members, hnew]
    · simp only [members, hobj e' e] at he ⊢; exact I.slots_plain e' he

/-- Pointwise description of storing `x` in container `c`. -/
structure Attached (h h' : Heap) (c x : Oid) : Prop where
  next : h'.next = h.next
  cls : ∀ j, (h'.obj j).cls = (h.obj j).cls
  name : ∀ j, (h'.obj j).name = (h.obj j).name
  parent : ∀ j, (h'.obj j).parent = if j = x then some c else (h.obj j).parent
  packages : ∀ j, (h'.obj j).packages =
    if j = c ∧ (h.obj x).cls = .package then (h.obj c).packages ++ [x] else (h.obj j).packages
  elements : ∀ j, (h'.obj j).elements =
    if j = c ∧ (h.obj x).cls ≠ .package then (h.obj c).elements ++ [x] else (h.obj j).elements
  map : ∀ j, (h'.obj j).map =
    if j = c then dictSet (h.obj c).map (h.obj x).name x else (h.obj j).map
  slotA : ∀ j, (h'.obj j).slotA = (h.obj j).slotA
  slotB : ∀ j, (h'.obj j).slotB = (h.obj j).slotB
  slotC : ∀ j, (h'.obj j).slotC = (h.obj j).slotC
  other : ∀ j, j ≠ c → j ≠ x → h'.obj j = h.obj j

theorem attached_pkg (h : Heap) (c x : Oid) (n : String) (hx : (h.obj x).cls = .package)
    (hn : n = (h.obj x).name) :
    Attached h (mapSet (pushPackage (setParent h x c) c x) c n x) c x := by
  subst hn
  constructor <;> (try intro j) <;>
    simp [mapSet, pushPackage, setParent, Heap.set, hx]
  all_goals
    by_cases e1 : j = c <;> by_cases e2 : j = x <;> by_cases e3 : c = x <;>
      simp_all

theorem attached_elem (h : Heap) (c x : Oid) (n : String) (hx : (h.obj x).cls ≠ .package)
    (hn : n = (h.obj x).name) :
    Attached h (mapSet (pushElement (setParent h x c) c x) c n x) c x := by
  subst hn
  constructor <;> (try intro j) <;>
    simp [mapSet, pushElement, setParent, Heap.set, hx]
  all_goals
    by_cases e1 : j = c <;> by_cases e2 : j = x <;> by_cases e3 : c = x <;>
      simp_all

theorem attached_create (h : Heap) (c x : Oid) (n : String) (hx : (h.obj x).cls = .package)
    (hn : n = (h.obj x).name) :
    Attached h (setParent (pushPackage (mapSet h c n x) c x) x c) c x := by
  subst hn
  constructor <;> (try intro j) <;>
    simp [mapSet, pushPackage, setParent, Heap.set, hx]
  all_goals
    by_cases e1 : j = c <;> by_cases e2 : j = x <;> by_cases e3 : c = x <;>
      simp_all

theorem inv_attached {h h' : Heap} {c x : Oid} (I : Inv h) (A : Attached h h' c x)
    (hc : c < h.next) (hx : x < h.next)
    (hcc : (h.obj c).cls.isContainer = true) (hxi : (h.obj x).cls.isItem = true)
    (hcoll : (h.obj c).cls = .collection → (h.obj x).cls = .package)
    (hnew : dictHas (h.obj c).map (h.obj x).name = false) : Inv h' := by
  have hcont : ∀ j, j ≠ c → contents h' j = contents h j := by
    intro j hj; simp [contents, A.packages, A.elements, hj]
  have hcontc : ∀ i, i ∈ contents h' c ↔ i ∈ contents h c ∨ i = x := by
    intro i
    by_cases hp : (h.obj x).cls = .package <;>
      simp [contents, A.packages, A.elements, hp] <;> grind
  have hnone : dictGet (h.obj c).map (h.obj x).name = none := by
    simpa [dictHas] using hnew
  have hmem : ∀ j, members h' j = members h j := by
    intro j; simp [members, A.slotA, A.slotB, A.slotC]
  constructor
  · intro i hi
    rw [A.next] at hi
    rw [A.other i (by omega) (by omega)]; exact I.fresh i hi
  · intro i hi
    rw [A.cls] at hi
    rw [A.parent]
    by_cases e : i = x
    · subst e; rw [hi] at hxi; simp [Cls.isItem] at hxi
    · simp [e]; exact I.coll_parent i hi
  · intro d j hj
    rw [A.next, A.cls]
    rw [A.packages] at hj
    split at hj
    · rename_i hh
      simp at hj
      rcases hj with hj | hj
      · exact I.pkgs_cls c j hj
      · subst hj; exact ⟨hx, hh.2⟩
    · exact I.pkgs_cls d j hj
  · intro d j hj
    rw [A.next, A.cls]
    rw [A.elements] at hj
    split at hj
    · rename_i hh
      simp at hj
      rcases hj with hj | hj
      · exact I.elems_cls c j hj
      · subst hj
        refine ⟨hx, ?_⟩
        cases hk : (h.obj j).cls <;> simp_all [Cls.isItem]
    · exact I.elems_cls d j hj
  · intro d hd
    rw [A.cls] at hd
    rw [A.elements]
    split
    · rename_i hh
      obtain ⟨rfl, h2⟩ := hh
      exact absurd (hcoll hd) h2
    · exact I.coll_elems d hd
  · intro d hd
    rw [A.cls] at hd
    have hdc : d ≠ c := by rintro rfl; rw [hcc] at hd; simp at hd
    rw [hcont d hdc, A.map]; simp [hdc]; exact I.non_container d hd
  · intro d n j
    rw [A.name, A.map]
    by_cases hdc : d = c
    · subst hdc
      simp only [if_true]
      rw [dictGet_set, hcontc]
      by_cases e : (h.obj x).name = n
      · subst e
        simp only [if_true]
        constructor
        · intro hh; injection hh with hh; subst hh; exact ⟨Or.inr rfl, rfl⟩
        · rintro ⟨h1 | h1, h2⟩
          · have := (I.map_iff d _ j).2 ⟨h1, h2⟩
            rw [hnone] at this; simp at this
          · rw [h1]
      · simp only [e, if_false]
        rw [I.map_iff]
        constructor
        · rintro ⟨h1, h2⟩; exact ⟨Or.inl h1, h2⟩
        · rintro ⟨h1 | h1, h2⟩
          · exact ⟨h1, h2⟩
          · subst h1; exact absurd h2 e
    · rw [hcont d hdc]; simp only [hdc, if_false]; exact I.map_iff d n j
  · intro d
    have hname : (fun i => (h'.obj i).name) = (fun i => (h.obj i).name) := by
      funext i; exact A.name i
    rw [hname]
    by_cases hdc : d = c
    · subst hdc
      have hnotin : (h.obj x).name ∉ (contents h d).map (fun i => (h.obj i).name) := by
        intro hh
        simp only [List.mem_map] at hh
        obtain ⟨i, hi, hin⟩ := hh
        have := (I.map_iff d _ i).2 ⟨hi, hin⟩
        rw [hnone] at this; simp at this
      have hperm : (contents h' d).Perm (x :: contents h d) := by
        by_cases hp : (h.obj x).cls = .package
        · simp only [contents, A.packages, A.elements, hp]
          simp only [and_self, if_true, ne_eq, not_true_eq_false, and_false, if_false,
            List.append_assoc]
          exact List.perm_middle
        · simp only [contents, A.packages, A.elements, hp]
          simp only [and_false, if_false, ne_eq, not_false_eq_true, and_self, if_true, hp]
          rw [← List.append_assoc]
          exact (List.perm_append_comm).trans (by simp)
      have := hperm.map (fun i => (h.obj i).name)
      rw [this.nodup_iff]
      simp only [List.map_cons, List.nodup_cons]
      exact ⟨hnotin, I.nodup d⟩
    · rw [hcont d hdc]; exact I.nodup d
  · intro y p hp hy
    rw [A.next, A.cls]
    rw [A.cls] at hy
    rw [A.parent] at hp
    by_cases e : y = x
    · subst e
      simp at hp; subst hp
      exact ⟨hc, hcc, (hcontc y).2 (Or.inr rfl)⟩
    · simp [e] at hp
      obtain ⟨h1, h2, h3⟩ := I.item_parent y p hp hy
      refine ⟨h1, h2, ?_⟩
      by_cases e' : p = c
      · subst e'; exact (hcontc y).2 (Or.inl h3)
      · rw [hcont p e']; exact h3
  · intro y p k hp hy
    rw [A.cls] at hy
    rw [A.parent] at hp
    rw [A.next, A.cls, hmem]
    by_cases e : y = x
    · subst e; rw [hy] at hxi; simp [Cls.isItem] at hxi
    · simp [e] at hp; exact I.member_parent y p k hp hy
  · intro e m hm
    rw [hmem] at hm
    rw [A.next, A.cls]; exact I.members_lt e m hm
  · intro e he; rw [A.cls] at he; rw [A.slotA, A.slotB]; exact I.slots_swc e he
  · intro e he; rw [A.cls] at he; rw [A.slotC]; exact I.slots_mode e he
  · intro e he; rw [A.cls] at he; rw [A.slotB, A.slotC]; exact I.slots_impl e he
  · intro e he; rw [A.cls] at he; rw [hmem]; exact I.slots_plain e he

/-! ### append -/

theorem packageAppend_cases (h : Heap) (c x : Oid) :
    ((packageAppend h c x).1 = h ∧ ∃ e, (packageAppend h c x).2 = .error e) ∨
    (Attached h (packageAppend h c x).1 c x ∧ (packageAppend h c x).2 = .ok () ∧
      (h.obj x).cls.isItem = true ∧ dictHas (h.obj c).map (h.obj x).name = false) := by
  unfold packageAppend
  cases hx : (h.obj x).cls with
  | collection => left; simp
  | member k => left; simp
  | package =>
    simp only
    by_cases hd : dictHas (h.obj c).map (h.obj x).name = true
    · left; simp [hd]
    · right
      simp only [hd, if_false]
      refine ⟨attached_pkg h c x _ hx rfl, by simp, rfl, by simpa using hd⟩
  | element k =>
    simp only
    by_cases hd : dictHas (h.obj c).map (h.obj x).name = true
    · left; simp [hd]
    · right
      simp only [hd, if_false]
      refine ⟨attached_elem h c x _ (by simp [hx]) rfl, by simp, rfl, by simpa using hd⟩

theorem collectionAppend_cases (h : Heap) (c x : Oid) :
    ((collectionAppend h c x).1 = h) ∨
    (Attached h (collectionAppend h c x).1 c x ∧ (collectionAppend h c x).2 = .ok () ∧
      (h.obj x).cls = .package ∧ dictHas (h.obj c).map (h.obj x).name = false) := by
  unfold collectionAppend
  cases hx : (h.obj x).cls with
  | collection => left; simp
  | member k => left; simp
  | element k => left; simp
  | package =>
    simp only
    by_cases hd : dictHas (h.obj c).map (h.obj x).name = true
    · left; simp [hd]
    · right
      simp only [hd, if_false]
      refine ⟨attached_pkg h c x _ hx rfl, by simp, trivial, by simpa using hd⟩

theorem inv_append {h : Heap} (I : Inv h) {c x : Oid} (hc : c < h.next) (hx : x < h.next) :
    Inv (append h c x).1 := by
  unfold append
  cases hcc : (h.obj c).cls with
  | element k => exact I
  | member k => exact I
  | package =>
    simp only
    rcases packageAppend_cases h c x with ⟨h1, _⟩ | ⟨A, _, h3, h4⟩
    · rw [h1]; exact I
    · exact inv_attached I A hc hx (by simp [hcc, Cls.isContainer]) h3 (by simp [hcc]) h4
  | collection =>
    simp only
    rcases collectionAppend_cases h c x with h1 | ⟨A, _, h3, h4⟩
    · rw [h1]; exact I
    · exact inv_attached I A hc hx (by simp [hcc, Cls.isContainer])
        (by simp [h3, Cls.isItem]) (fun _ => h3) h4

/-! ### create_package -/

theorem alloc_obj_ne (h : Heap) (cls : Cls) (name : String) {i : Oid} (hi : i ≠ h.next) :
    (h.alloc cls name).obj i = h.obj i := by simp [Heap.alloc, hi]

theorem alloc_obj_new (h : Heap) (cls : Cls) (name : String) :
    (h.alloc cls name).obj h.next = { cls := cls, name := name } := by simp [Heap.alloc]

/-- Both `create_package` methods: either the name is taken and nothing happens, or
a new package is allocated and attached. -/
def Created (h h' : Heap) (c : Oid) (name : String) : Prop :=
  Attached (h.alloc .package name) h' c h.next

theorem packageCreate_cases (h : Heap) (c : Oid) (name : String) (hc : c < h.next) :
    (dictHas (h.obj c).map name = true ∧
      packageCreate h c name = (h, .ok (.excValue .valueError))) ∨
    (dictHas (h.obj c).map name = false ∧ Created h (packageCreate h c name).1 c name ∧
      (packageCreate h c name).2 = .ok (.obj h.next)) := by
  unfold packageCreate
  by_cases hd : dictHas (h.obj c).map name = true
  · left; simp [hd]
  · right
    simp only [hd, if_false]
    refine ⟨by simpa using hd, ?_, by simp⟩
    exact attached_create _ c h.next name (by rw [alloc_obj_new]) (by rw [alloc_obj_new])

theorem collectionCreate_cases (h : Heap) (c : Oid) (name : String) (hc : c < h.next) :
    (dictHas (h.obj c).map name = true ∧
      collectionCreate h c name = (h, .ok (.excValue .valueError))) ∨
    (dictHas (h.obj c).map name = false ∧ Created h (collectionCreate h c name).1 c name ∧
      (collectionCreate h c name).2 = .ok (.obj h.next)) := by
  unfold collectionCreate
  by_cases hd : dictHas (h.obj c).map name = true
  · left; simp [hd]
  · right
    have hcls : ((h.alloc .package name).obj h.next).cls = .package := by rw [alloc_obj_new]
    have hname : ((h.alloc .package name).obj h.next).name = name := by rw [alloc_obj_new]
    have hmap : ((h.alloc .package name).obj c).map = (h.obj c).map := by
      rw [alloc_obj_ne h _ _ (by omega)]
    have hd' : dictHas ((h.alloc .package name).obj c).map
        ((h.alloc .package name).obj h.next).name = false := by
      rw [hmap, hname]; simpa using hd
    have hA : (collectionAppend (h.alloc .package name) c h.next).1 =
        mapSet (pushPackage (setParent (h.alloc .package name) h.next c) c h.next) c
          ((h.alloc .package name).obj h.next).name h.next ∧
        (collectionAppend (h.alloc .package name) c h.next).2 = .ok () := by
      unfold collectionAppend
      simp [hcls, hd']
    simp only [hd, if_false]
    have hsplit : collectionAppend (h.alloc .package name) c h.next =
      (mapSet (pushPackage (setParent (h.alloc .package name) h.next c) c h.next) c
          ((h.alloc .package name).obj h.next).name h.next, .ok ()) := Prod.ext hA.1 hA.2
    rw [hsplit]
    refine ⟨by simpa using hd, ?_, by simp⟩
    exact attached_pkg _ c h.next _ hcls rfl

theorem inv_created {h h' : Heap} {c : Oid} {name : String} (I : Inv h) (hc : c < h.next)
    (hcc : (h.obj c).cls.isContainer = true) (hd : dictHas (h.obj c).map name = false)
    (C : Created h h' c name) : Inv h' := by
  have hcne : c ≠ h.next := by omega
  refine inv_attached (inv_alloc I .package name) C ?_ ?_ ?_ ?_ ?_ ?_
  · show c < h.next + 1; omega
  · show h.next < h.next + 1; omega
  · rw [alloc_obj_ne _ _ _ hcne]; exact hcc
  · rw [alloc_obj_new]; rfl
  · intro _; rw [alloc_obj_new]
  · rw [alloc_obj_ne _ _ _ hcne, alloc_obj_new]; exact hd

theorem inv_createPackage {h : Heap} (I : Inv h) {c : Oid} (hc : c < h.next) (name : String) :
    Inv (createPackage h c name).1 := by
  unfold createPackage
  cases hcc : (h.obj c).cls with
  | element k => exact I
  | member k => exact I
  | package =>
    simp only
    rcases packageCreate_cases h c name hc with ⟨_, h1⟩ | ⟨hd, C, _⟩
    · rw [h1]; exact I
    · exact inv_created I hc (by simp [hcc, Cls.isContainer]) hd C
  | collection =>
    simp only
    rcases collectionCreate_cases h c name hc with ⟨_, h1⟩ | ⟨hd, C, _⟩
    · rw [h1]; exact I
    · exact inv_created I hc (by simp [hcc, Cls.isContainer]) hd C

/-! ### make_packages -/

theorem created_next {h h' : Heap} {c : Oid} {name : String} (C : Created h h' c name) :
    h'.next = h.next + 1 := C.next

theorem created_new_cls {h h' : Heap} {c : Oid} {name : String} (C : Created h h' c name) :
    (h'.obj h.next).cls = .package := by
  rw [C.cls, alloc_obj_new]

theorem map_lt {h : Heap} (I : Inv h) {c : Oid} {n : String} {x : Oid}
    (hm : dictGet (h.obj c).map n = some x) : x < h.next := by
  have := (I.map_iff c n x).1 hm
  simp only [contents, List.mem_append] at this
  rcases this.1 with h1 | h1
  · exact (I.pkgs_cls c x h1).1
  · exact (I.elems_cls c x h1).1

theorem inv_packageMake : ∀ (fuel : Nat) {h : Heap} (_ : Inv h) {c : Oid} (_ : c < h.next)
    (_ : (h.obj c).cls = .package) (ref : List Char), Inv (packageMake fuel h c ref).1
  | 0, h, I, c, _, _, ref => by simpa [packageMake] using I
  | fuel + 1, h, I, c, hc, hcc, ref => by
    unfold packageMake
    by_cases hs : startsWithL '/' ref = true
    · simp [hs]; exact I
    simp only [hs]
    cases hg : dictGet (h.obj c).map (String.ofList (partL '/' ref).1) with
    | some x =>
      by_cases hx : (h.obj x).cls = .package
      · by_cases hp : (partL '/' ref).2 = []
        · simp [hx, hp, hg]; exact I
        · simp [hx, hp, hg]; exact inv_packageMake fuel I (map_lt I hg) hx _
      · simp [hx, hg]; exact I
    | none =>
      rcases packageCreate_cases h c (String.ofList (partL '/' ref).1) hc with ⟨h1, _⟩ | ⟨hd, C, h2⟩
      · simp [dictHas, hg] at h1
      · have hI := inv_created I hc (by simp [hcc, Cls.isContainer]) hd C
        have hnx := created_next C
        have hnc := created_new_cls C
        have hr : packageCreate h c (String.ofList (partL '/' ref).1) =
          ((packageCreate h c (String.ofList (partL '/' ref).1)).1, .ok (.obj h.next)) :=
          Prod.ext rfl h2
        generalize (packageCreate h c (String.ofList (partL '/' ref).1)).1 = r1 at *
        by_cases hp : (partL '/' ref).2 = []
        · simp [hg, hr, hp]; exact hI
        · simp [hg, hr, hp]; exact inv_packageMake fuel hI (by omega) hnc _

theorem coll_map_pkg {h : Heap} (I : Inv h) {c : Oid} {n : String} {x : Oid}
    (hc : (h.obj c).cls = .collection) (hm : dictGet (h.obj c).map n = some x) :
    (h.obj x).cls = .package := by
  have := (I.map_iff c n x).1 hm
  simp only [contents, I.coll_elems c hc, List.append_nil] at this
  exact (I.pkgs_cls c x this.1).2

theorem inv_collectionMake1 {h : Heap} (I : Inv h) {c : Oid} (hc : c < h.next)
    (hcc : (h.obj c).cls = .collection) (ref : List Char) :
    Inv (collectionMake1 h c ref).1 := by
  unfold collectionMake1
  generalize partL '/' (stripLead '/' ref) = parts
  cases hg : dictGet (h.obj c).map (String.ofList parts.1) with
  | some x =>
    by_cases hp : parts.2 = []
    · simp [hg, hp]; exact I
    · simp [hg, hp]; exact inv_packageMake _ I (map_lt I hg) (coll_map_pkg I hcc hg) _
  | none =>
    rcases collectionCreate_cases h c (String.ofList parts.1) hc with ⟨h1, _⟩ | ⟨hd, C, h2⟩
    · simp [dictHas, hg] at h1
    · have hI := inv_created I hc (by simp [hcc, Cls.isContainer]) hd C
      have hnx := created_next C
      have hnc := created_new_cls C
      have hr : collectionCreate h c (String.ofList parts.1) =
        ((collectionCreate h c (String.ofList parts.1)).1, .ok (.obj h.next)) :=
        Prod.ext rfl h2
      generalize (collectionCreate h c (String.ofList parts.1)).1 = r1 at *
      by_cases hp : parts.2 = []
      · simp [hg, hr, hp]; exact hI
      · simp [hg, hr, hp]; exact inv_packageMake _ hI (by omega) hnc _

end Verif.Pkg
