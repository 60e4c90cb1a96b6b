import Verif.Pkg.Inv
/-
How the heap grows under `make_packages`, and what that means for `find`.
-/
set_option linter.unusedSimpArgs false
set_option linter.unusedVariables false

namespace Verif.Pkg
open Verif.Py

/-- `h'` is `h` plus new packages: old objects keep everything except that their
name map (and package list) may have gained new packages. -/
structure Grow (h h' : Heap) : Prop where
  next : h.next ≤ h'.next
  cls : ∀ i, i < h.next → (h'.obj i).cls = (h.obj i).cls
  name : ∀ i, i < h.next → (h'.obj i).name = (h.obj i).name
  parent : ∀ i, i < h.next → (h'.obj i).parent = (h.obj i).parent
  elements : ∀ i, i < h.next → (h'.obj i).elements = (h.obj i).elements
  slotA : ∀ i, i < h.next → (h'.obj i).slotA = (h.obj i).slotA
  slotB : ∀ i, i < h.next → (h'.obj i).slotB = (h.obj i).slotB
  slotC : ∀ i, i < h.next → (h'.obj i).slotC = (h.obj i).slotC
  packages : ∀ i, i < h.next → ∃ l, (h'.obj i).packages = (h.obj i).packages ++ l ∧
    ∀ j ∈ l, h.next ≤ j
  map : ∀ i, i < h.next → ∀ k, dictGet (h'.obj i).map k = dictGet (h.obj i).map k ∨
    (dictGet (h.obj i).map k = none ∧ ∃ j, h.next ≤ j ∧ j < h'.next ∧
      dictGet (h'.obj i).map k = some j)
  newObj : ∀ i, h.next ≤ i → i < h'.next → (h'.obj i).cls = .package ∧ (h'.obj i).elements = [] ∧
    ∀ k j, dictGet (h'.obj i).map k = some j → h.next ≤ j ∧ j < h'.next

theorem Grow.refl (h : Heap) : Grow h h := by
  constructor <;> (try intros) <;> (try rfl) <;> (try omega)
  · exact ⟨[], by simp, by simp⟩
  · exact Or.inl rfl

theorem Grow.trans {h1 h2 h3 : Heap} (a : Grow h1 h2) (b : Grow h2 h3) : Grow h1 h3 := by
  have hn := a.next
  have hn2 := b.next
  constructor
  · omega
  · intro i hi; rw [b.cls i (by omega), a.cls i hi]
  · intro i hi; rw [b.name i (by omega), a.name i hi]
  · intro i hi; rw [b.parent i (by omega), a.parent i hi]
  · intro i hi; rw [b.elements i (by omega), a.elements i hi]
  · intro i hi; rw [b.slotA i (by omega), a.slotA i hi]
  · intro i hi; rw [b.slotB i (by omega), a.slotB i hi]
  · intro i hi; rw [b.slotC i (by omega), a.slotC i hi]
  · intro i hi
    obtain ⟨l, h1, h2⟩ := a.packages i hi
    obtain ⟨l', h1', h2'⟩ := b.packages i (by omega)
    refine ⟨l ++ l', by rw [h1', h1, List.append_assoc], ?_⟩
    intro j hj
    rcases List.mem_append.1 hj with hj | hj
    · exact h2 j hj
    · have := h2' j hj; omega
  · intro i hi k
    rcases a.map i hi k with h1 | ⟨h1, j, hj, hj', hk⟩ <;>
      rcases b.map i (by omega) k with h2 | ⟨h2, j2, hj2, hj2', hk2⟩
    · left; rw [h2, h1]
    · right; exact ⟨by rw [← h1, h2], j2, by omega, by omega, hk2⟩
    · right; exact ⟨h1, j, hj, by omega, by rw [h2, hk]⟩
    · rw [hk] at h2; simp at h2
  · intro i hi hi'
    by_cases hlt : i < h2.next
    · obtain ⟨n1, n2, n3⟩ := a.newObj i hi hlt
      refine ⟨by rw [b.cls i hlt, n1], by rw [b.elements i hlt, n2], ?_⟩
      intro k j hj
      rcases b.map i hlt k with h2 | ⟨h2, j2, hj2, hj2', hk2⟩
      · rw [h2] at hj; have := n3 k j hj; omega
      · rw [hk2] at hj; injection hj with hj; omega
    · obtain ⟨n1, n2, n3⟩ := b.newObj i (by omega) hi'
      refine ⟨n1, n2, ?_⟩
      intro k j hj
      have := n3 k j hj; omega

theorem grow_created {h h' : Heap} {c : Oid} {name : String} (I : Inv h) (hc : c < h.next)
    (hd : dictHas (h.obj c).map name = false) (C : Created h h' c name) : Grow h h' := by
  have hnone : dictGet (h.obj c).map name = none := by simpa [dictHas] using hd
  have hne : ∀ i, i < h.next → i ≠ h.next := by intro i hi; omega
  have hnew := alloc_obj_new h .package name
  have hcne : c ≠ h.next := by omega
  constructor
  · rw [created_next C]; omega
  · intro i hi; rw [C.cls, alloc_obj_ne _ _ _ (hne i hi)]
  · intro i hi; rw [C.name, alloc_obj_ne _ _ _ (hne i hi)]
  · intro i hi; rw [C.parent]; simp [hne i hi]; rw [alloc_obj_ne _ _ _ (hne i hi)]
  · intro i hi; rw [C.elements, hnew]; simp; rw [alloc_obj_ne _ _ _ (hne i hi)]
  · intro i hi; rw [C.slotA, alloc_obj_ne _ _ _ (hne i hi)]
  · intro i hi; rw [C.slotB, alloc_obj_ne _ _ _ (hne i hi)]
  · intro i hi; rw [C.slotC, alloc_obj_ne _ _ _ (hne i hi)]
  · intro i hi
    rw [C.packages, hnew]
    by_cases e : i = c
    · subst e; simp; refine ⟨[h.next], by rw [alloc_obj_ne _ _ _ hcne], by simp⟩
    · simp [e]; refine ⟨[], by rw [alloc_obj_ne _ _ _ (hne i hi)]; simp, by simp⟩
  · intro i hi k
    rw [C.map, hnew]
    by_cases e : i = c
    · subst e
      simp only [if_true]
      rw [alloc_obj_ne _ _ _ hcne, dictGet_set]
      by_cases e' : name = k
      · subst e'; right; refine ⟨hnone, h.next, by omega, ?_, by simp⟩
        rw [created_next C]; omega
      · left; simp [e']
    · left; simp only [e, if_false]; rw [alloc_obj_ne _ _ _ (hne i hi)]
  · intro i hi hi'
    rw [created_next C] at hi'
    have : i = h.next := by omega
    subst this
    refine ⟨created_new_cls C, ?_, ?_⟩
    · rw [C.elements, hnew]; simp
    · intro k j hj
      rw [C.map] at hj
      have : h.next ≠ c := fun e => hcne e.symm
      simp [this, hnew, dictGet] at hj

/-- Fuel beyond the length of the reference is irrelevant. -/
theorem findAux_fuel (h : Heap) : ∀ (n : Nat) (c : Oid) (s : List Char), s.length + 1 ≤ n →
    findAux n h c s = findAux (s.length + 1) h c s := by
  intro n
  induction n using Nat.strongRecOn with
  | _ n ih =>
    intro c s hn
    cases n with
    | zero => omega
    | succ n =>
      unfold findAux
      have h1 := stripLead_length '/' s
      cases hcls : (h.obj c).cls with
      | element k => rfl
      | member k => rfl
      | package =>
        simp only
        cases hg : dictGet (h.obj c).map (String.ofList (partL '/' (stripLead '/' s)).1) with
        | none => simp [hg]
        | some x =>
          simp only [hg]
          by_cases hp : (partL '/' (stripLead '/' s)).2 = []
          · simp [hp]
          · have h2 := partL_length_lt '/' (stripLead '/' s) hp
            simp only [ne_eq, hp, not_false_eq_true, if_true]
            rw [ih n (by omega) x _ (by omega)]
            by_cases e : s.length = n
            · rw [e]; exact (ih n (by omega) x _ (by omega)).symm
            · exact (ih s.length (by omega) x _ (by omega)).symm
      | collection =>
        simp only
        cases hg : dictGet (h.obj c).map (String.ofList (partL '/' (stripLead '/' s)).1) with
        | none => simp [hg]
        | some x =>
          simp only [hg]
          by_cases hp : (partL '/' (stripLead '/' s)).2 = []
          · simp [hp]
          · have h2 := partL_length_lt '/' (stripLead '/' s) hp
            simp only [ne_eq, hp, not_false_eq_true, if_true]
            rw [ih n (by omega) x _ (by omega)]
            by_cases e : s.length = n
            · rw [e]; exact (ih n (by omega) x _ (by omega)).symm
            · exact (ih s.length (by omega) x _ (by omega)).symm

/-- The model's `find` satisfies the recursion equation of the Python method. -/
theorem find_unfold (h : Heap) (c : Oid) (s : List Char)
    (hc : (h.obj c).cls.isContainer = true) :
    findAux (s.length + 1) h c s =
      (match dictGet (h.obj c).map (String.ofList (partL '/' (stripLead '/' s)).1) with
       | none => .ok none
       | some x =>
         if (partL '/' (stripLead '/' s)).2 ≠ [] then
           findAux ((partL '/' (stripLead '/' s)).2.length + 1) h x (partL '/' (stripLead '/' s)).2
         else .ok (some x)) := by
  have h1 := stripLead_length '/' s
  have key : ∀ x, (partL '/' (stripLead '/' s)).2 ≠ [] →
      findAux s.length h x (partL '/' (stripLead '/' s)).2 =
      findAux ((partL '/' (stripLead '/' s)).2.length + 1) h x (partL '/' (stripLead '/' s)).2 := by
    intro x hp
    have h2 := partL_length_lt '/' (stripLead '/' s) hp
    exact findAux_fuel h _ x _ (by omega)
  conv => lhs; unfold findAux
  cases hcls : (h.obj c).cls with
  | element k => simp [hcls, Cls.isContainer] at hc
  | member k => simp [hcls, Cls.isContainer] at hc
  | package =>
    simp only
    cases hg : dictGet (h.obj c).map (String.ofList (partL '/' (stripLead '/' s)).1) with
    | none => simp [hg]
    | some x =>
      by_cases hp : (partL '/' (stripLead '/' s)).2 = []
      · simp [hp, hg]
      · simp only [hg, ne_eq, hp, not_false_eq_true, if_true]; exact key x hp
  | collection =>
    simp only
    cases hg : dictGet (h.obj c).map (String.ofList (partL '/' (stripLead '/' s)).1) with
    | none => simp [hg]
    | some x =>
      by_cases hp : (partL '/' (stripLead '/' s)).2 = []
      · simp [hp, hg]
      · simp only [hg, ne_eq, hp, not_false_eq_true, if_true]; exact key x hp

theorem firstNamed_grow {h h' : Heap} (G : Grow h h') {l : List Oid} (hl : ∀ j ∈ l, j < h.next)
    (n : String) : firstNamed h' l n = firstNamed h l n := by
  unfold firstNamed
  induction l with
  | nil => rfl
  | cons a l ih =>
    have ha := G.name a (hl a (by simp))
    simp only [List.find?_cons, ha]
    rw [ih (fun j hj => hl j (by simp [hj]))]

theorem elemFind_grow {h h' : Heap} (I : Inv h) (G : Grow h h') {e : Oid} (he : e < h.next)
    (k : ElemKind) (s : List Char) : elemFind h' e k s = elemFind h e k s := by
  have hA : ∀ n, firstNamed h' (h.obj e).slotA n = firstNamed h (h.obj e).slotA n := fun n =>
    firstNamed_grow G (fun j hj => (I.members_lt e j (by simp [members, hj])).1) n
  have hB : ∀ n, firstNamed h' (h.obj e).slotB n = firstNamed h (h.obj e).slotB n := fun n =>
    firstNamed_grow G (fun j hj => (I.members_lt e j (by simp [members, hj])).1) n
  have hC : ∀ n, firstNamed h' (h.obj e).slotC n = firstNamed h (h.obj e).slotC n := fun n =>
    firstNamed_grow G (fun j hj => (I.members_lt e j (by simp [members, hj])).1) n
  unfold elemFind
  rw [G.slotA e he, G.slotB e he, G.slotC e he]
  cases k <;> simp only [hA, hB, hC]

/-- Inside freshly made packages `find` yields nothing or a fresh package. -/
theorem findAux_new {h h' : Heap} (G : Grow h h') : ∀ (n : Nat) (c : Oid) (s : List Char),
    s.length + 1 ≤ n → h.next ≤ c → c < h'.next →
    findAux n h' c s = .ok none ∨
      ∃ y, h.next ≤ y ∧ y < h'.next ∧ (h'.obj y).cls = .package ∧ findAux n h' c s = .ok (some y) := by
  intro n
  induction n with
  | zero => intro c s hn; omega
  | succ n ih =>
    intro c s hn hc hc'
    obtain ⟨n1, _, n3⟩ := G.newObj c hc hc'
    have h1 := stripLead_length '/' s
    simp only [findAux, n1]
    cases hg : dictGet (h'.obj c).map (String.ofList (partL '/' (stripLead '/' s)).1) with
    | none => left; rfl
    | some x =>
      simp only
      have hx := n3 _ x hg
      by_cases hp : (partL '/' (stripLead '/' s)).2 = []
      · right; simp only [hp, ne_eq, not_true_eq_false, if_false]
        exact ⟨x, hx.1, hx.2, (G.newObj x hx.1 hx.2).1, rfl⟩
      · have h2 := partL_length_lt '/' (stripLead '/' s) hp
        simp only [ne_eq, hp, not_false_eq_true, if_true]
        exact ih x _ (by omega) hx.1 hx.2

theorem findAux_grow {h h' : Heap} (I : Inv h) (G : Grow h h') :
    ∀ (n : Nat) (c : Oid) (s : List Char), s.length + 1 ≤ n → c < h.next →
    findAux n h' c s = findAux n h c s ∨
      (findAux n h c s = .ok none ∧ ∃ y, h.next ≤ y ∧ y < h'.next ∧ (h'.obj y).cls = .package ∧
        findAux n h' c s = .ok (some y)) := by
  intro n
  induction n with
  | zero => intro c s hn; omega
  | succ n ih =>
    intro c s hn hc
    have h1 := stripLead_length '/' s
    unfold findAux
    rw [G.cls c hc]
    have main : ∀ (_ : (h.obj c).cls.isContainer = true),
      (match dictGet (h'.obj c).map (String.ofList (partL '/' (stripLead '/' s)).1) with
        | none => (.ok none : Except PyErr (Option Nat))
        | some x => if (partL '/' (stripLead '/' s)).2 ≠ [] then
            findAux n h' x (partL '/' (stripLead '/' s)).2 else .ok (some x)) =
      (match dictGet (h.obj c).map (String.ofList (partL '/' (stripLead '/' s)).1) with
        | none => (.ok none : Except PyErr (Option Nat))
        | some x => if (partL '/' (stripLead '/' s)).2 ≠ [] then
            findAux n h x (partL '/' (stripLead '/' s)).2 else .ok (some x)) ∨
      ((match dictGet (h.obj c).map (String.ofList (partL '/' (stripLead '/' s)).1) with
        | none => (.ok none : Except PyErr (Option Nat))
        | some x => if (partL '/' (stripLead '/' s)).2 ≠ [] then
            findAux n h x (partL '/' (stripLead '/' s)).2 else .ok (some x)) = .ok none ∧
        ∃ y, h.next ≤ y ∧ y < h'.next ∧ (h'.obj y).cls = .package ∧
        (match dictGet (h'.obj c).map (String.ofList (partL '/' (stripLead '/' s)).1) with
        | none => (.ok none : Except PyErr (Option Nat))
        | some x => if (partL '/' (stripLead '/' s)).2 ≠ [] then
            findAux n h' x (partL '/' (stripLead '/' s)).2 else .ok (some x)) = .ok (some y)) := by
      intro _
      rcases G.map c hc (String.ofList (partL '/' (stripLead '/' s)).1) with hm | ⟨hm, j, hj, hj', hk⟩
      · rw [hm]
        cases hg : dictGet (h.obj c).map (String.ofList (partL '/' (stripLead '/' s)).1) with
        | none => left; rfl
        | some x =>
          by_cases hp : (partL '/' (stripLead '/' s)).2 = []
          · left; simp [hp]
          · have h2 := partL_length_lt '/' (stripLead '/' s) hp
            simp only [ne_eq, hp, not_false_eq_true, if_true]
            exact ih x _ (by omega) (map_lt I hg)
      · rw [hm, hk]
        by_cases hp : (partL '/' (stripLead '/' s)).2 = []
        · right; simp only [hp, ne_eq, not_true_eq_false, if_false, true_and]
          exact ⟨j, hj, hj', (G.newObj j hj hj').1, rfl⟩
        · have h2 := partL_length_lt '/' (stripLead '/' s) hp
          simp only [ne_eq, hp, not_false_eq_true, if_true, true_and]
          rcases findAux_new G n j (partL '/' (stripLead '/' s)).2 (by omega) hj hj' with h3 | h3
          · left; exact h3
          · right; exact h3
    cases hcls : (h.obj c).cls with
    | element k => left; exact elemFind_grow I G hc k s
    | member k => left; rfl
    | package => exact main (by simp [hcls, Cls.isContainer])
    | collection => exact main (by simp [hcls, Cls.isContainer])

/-! ### make_packages grows the heap, and what it returns is what `find` finds -/

theorem packageMake_spec : ∀ (fuel : Nat) {h : Heap} (_ : Inv h) {c : Oid} (_ : c < h.next)
    (_ : (h.obj c).cls = .package) (ref : List Char), ref.length + 1 ≤ fuel →
    Grow h (packageMake fuel h c ref).1 ∧
    (∀ x, (packageMake fuel h c ref).2 = .ok x →
      ∀ h2, Inv (packageMake fuel h c ref).1 → Grow (packageMake fuel h c ref).1 h2 →
        packageMake fuel h2 c ref = (h2, .ok x) ∧
        findAux (ref.length + 1) h2 c ref = .ok (some x) ∧ (h2.obj x).cls = .package)
  | 0, h, I, c, _, _, ref => by intro h; omega
  | fuel + 1, h, I, c, hc, hcc, ref => by
    intro hlen
    by_cases hs : startsWithL '/' ref = true
    · have : packageMake (fuel + 1) h c ref = (h, .error .valueError) := by
        simp [packageMake, hs]
      rw [this]; exact ⟨Grow.refl h, by simp⟩
    have hstrip : stripLead '/' ref = ref := stripLead_of_not '/' ref (by simpa using hs)
    -- common end game: child `y` known in the grown heap
    have finish : ∀ (y : Oid) (h2 : Heap), (h2.obj c).cls = .package → (h2.obj y).cls = .package →
        dictGet (h2.obj c).map (String.ofList (partL '/' ref).1) = some y →
        (∀ x, ((partL '/' ref).2 ≠ [] → packageMake fuel h2 y (partL '/' ref).2 = (h2, .ok x) ∧
          findAux ((partL '/' ref).2.length + 1) h2 y (partL '/' ref).2 = .ok (some x) ∧
          (h2.obj x).cls = .package) → ((partL '/' ref).2 = [] → x = y) →
        packageMake (fuel + 1) h2 c ref = (h2, .ok x) ∧
        findAux (ref.length + 1) h2 c ref = .ok (some x) ∧ (h2.obj x).cls = .package) := by
      intro y h2 hcc2 hy hg x hx1 hx2
      have hu := find_unfold h2 c ref (by simp [hcc2, Cls.isContainer])
      rw [hstrip, hg] at hu
      by_cases hp : (partL '/' ref).2 = []
      · have := hx2 hp; subst this
        refine ⟨?_, ?_, hy⟩
        · simp [packageMake, hs, hg, hp, hy]
        · rw [hu]; simp [hp]
      · obtain ⟨p1, p2, p3⟩ := hx1 hp
        refine ⟨?_, ?_, p3⟩
        · simp [packageMake, hs, hg, hp, hy]; exact p1
        · rw [hu]; simp [hp]; exact p2
    cases hg : dictGet (h.obj c).map (String.ofList (partL '/' ref).1) with
    | some y =>
      by_cases hy : (h.obj y).cls = .package
      · by_cases hp : (partL '/' ref).2 = []
        · have hr : packageMake (fuel + 1) h c ref = (h, .ok y) := by
            simp [packageMake, hs, hg, hp, hy]
          rw [hr]
          refine ⟨Grow.refl h, ?_⟩
          intro x hx h2 hI2 G2
          simp at hx; subst hx
          have hg2 : dictGet (h2.obj c).map (String.ofList (partL '/' ref).1) = some y := by
            rcases G2.map c hc (String.ofList (partL '/' ref).1) with h3 | ⟨h3, _⟩
            · rw [h3, hg]
            · simp only at h3; rw [hg] at h3; simp at h3
          exact finish y h2 (by rw [G2.cls c hc]; exact hcc)
            (by rw [G2.cls y (map_lt I hg)]; exact hy) hg2 y (fun h => absurd hp h) (fun _ => rfl)
        · have hlt := partL_length_lt '/' ref hp
          have hr : packageMake (fuel + 1) h c ref = packageMake fuel h y (partL '/' ref).2 := by
            simp [packageMake, hs, hg, hp, hy]
          obtain ⟨G, K⟩ := packageMake_spec fuel I (map_lt I hg) hy (partL '/' ref).2 (by omega)
          rw [hr]
          refine ⟨G, ?_⟩
          intro x hx h2 hI2 G2
          have G3 := G.trans G2
          have hg2 : dictGet (h2.obj c).map (String.ofList (partL '/' ref).1) = some y := by
            rcases G3.map c hc (String.ofList (partL '/' ref).1) with h3 | ⟨h3, _⟩
            · rw [h3, hg]
            · rw [hg] at h3; simp at h3
          exact finish y h2 (by rw [G3.cls c hc]; exact hcc)
            (by rw [G3.cls y (map_lt I hg)]; exact hy) hg2 x (fun _ => K x hx h2 hI2 G2)
            (fun h => absurd h hp)
      · have hr : packageMake (fuel + 1) h c ref = (h, .error .keyError) := by
          simp [packageMake, hs, hg, hy]
        rw [hr]; exact ⟨Grow.refl h, by simp⟩
    | none =>
      rcases packageCreate_cases h c (String.ofList (partL '/' ref).1) hc with ⟨h1, _⟩ | ⟨hd, C, h2⟩
      · simp [dictHas, hg] at h1
      have hI := inv_created I hc (by simp [hcc, Cls.isContainer]) hd C
      have hG := grow_created I hc hd C
      have hnx := created_next C
      have hnc := created_new_cls C
      have hgm : dictGet ((packageCreate h c (String.ofList (partL '/' ref).1)).1.obj c).map
          (String.ofList (partL '/' ref).1) = some h.next := by
        rw [C.map, alloc_obj_new]; simp [dictGet_set]
      have hcr : packageCreate h c (String.ofList (partL '/' ref).1) =
        ((packageCreate h c (String.ofList (partL '/' ref).1)).1, .ok (.obj h.next)) :=
        Prod.ext rfl h2
      generalize (packageCreate h c (String.ofList (partL '/' ref).1)).1 = h1 at *
      by_cases hp : (partL '/' ref).2 = []
      · have hr : packageMake (fuel + 1) h c ref = (h1, .ok h.next) := by
          simp [packageMake, hs, hg, hp, hcr]
        rw [hr]
        refine ⟨hG, ?_⟩
        intro x hx h2 hI2 G2
        simp at hx; subst hx
        have hg2 : dictGet (h2.obj c).map (String.ofList (partL '/' ref).1) = some h.next := by
          rcases G2.map c (by simp only; omega) (String.ofList (partL '/' ref).1) with h3 | ⟨h3, _⟩
          · rw [h3, hgm]
          · simp only at h3; rw [hgm] at h3; simp at h3
        exact finish h.next h2 (by rw [(hG.trans G2).cls c hc]; exact hcc)
          (by rw [G2.cls _ (by simp only; omega)]; exact hnc) hg2 _ (fun h => absurd hp h) (fun _ => rfl)
      · have hlt := partL_length_lt '/' ref hp
        have hr : packageMake (fuel + 1) h c ref = packageMake fuel h1 h.next (partL '/' ref).2 := by
          simp [packageMake, hs, hg, hp, hcr]
        obtain ⟨G, K⟩ := packageMake_spec fuel hI (c := h.next) (by omega) hnc (partL '/' ref).2 (by omega)
        rw [hr]
        refine ⟨hG.trans G, ?_⟩
        intro x hx h2 hI2 G2
        have G3 := G.trans G2
        have hg2 : dictGet (h2.obj c).map (String.ofList (partL '/' ref).1) = some h.next := by
          rcases G3.map c (by omega) (String.ofList (partL '/' ref).1) with h3 | ⟨h3, _⟩
          · rw [h3, hgm]
          · rw [hgm] at h3; simp at h3
        exact finish h.next h2 (by rw [(hG.trans G3).cls c hc]; exact hcc)
          (by rw [G3.cls _ (by omega)]; exact hnc) hg2 x (fun _ => K x hx h2 hI2 G2)
          (fun h => absurd h hp)

theorem collectionMake1_spec {h : Heap} (I : Inv h) {c : Oid} (hc : c < h.next)
    (hcc : (h.obj c).cls = .collection) (ref : List Char) :
    Grow h (collectionMake1 h c ref).1 ∧
    (∀ x, (collectionMake1 h c ref).2 = .ok x →
      ∀ h2, Grow (collectionMake1 h c ref).1 h2 →
        collectionMake1 h2 c ref = (h2, .ok x) ∧
        findAux (ref.length + 1) h2 c ref = .ok (some x) ∧ (h2.obj x).cls = .package) := by
  have hIm := inv_collectionMake1 I hc hcc ref
  have finish : ∀ (y : Oid) (h2 : Heap), (h2.obj c).cls = .collection → (h2.obj y).cls = .package →
      dictGet (h2.obj c).map (String.ofList (partL '/' (stripLead '/' ref)).1) = some y →
      (∀ x, ((partL '/' (stripLead '/' ref)).2 ≠ [] →
        packageMake ((partL '/' (stripLead '/' ref)).2.length + 1) h2 y
          (partL '/' (stripLead '/' ref)).2 = (h2, .ok x) ∧
        findAux ((partL '/' (stripLead '/' ref)).2.length + 1) h2 y
          (partL '/' (stripLead '/' ref)).2 = .ok (some x) ∧
        (h2.obj x).cls = .package) → ((partL '/' (stripLead '/' ref)).2 = [] → x = y) →
      collectionMake1 h2 c ref = (h2, .ok x) ∧
      findAux (ref.length + 1) h2 c ref = .ok (some x) ∧ (h2.obj x).cls = .package) := by
    intro y h2 hcc2 hy hg x hx1 hx2
    have hu := find_unfold h2 c ref (by simp [hcc2, Cls.isContainer])
    rw [hg] at hu
    by_cases hp : (partL '/' (stripLead '/' ref)).2 = []
    · have := hx2 hp; subst this
      refine ⟨?_, ?_, hy⟩
      · simp [collectionMake1, hg, hp]
      · rw [hu]; simp [hp]
    · obtain ⟨p1, p2, p3⟩ := hx1 hp
      refine ⟨?_, ?_, p3⟩
      · simp [collectionMake1, hg, hp]; exact p1
      · rw [hu]; simp [hp]; exact p2
  cases hg : dictGet (h.obj c).map (String.ofList (partL '/' (stripLead '/' ref)).1) with
  | some y =>
    have hy := coll_map_pkg I hcc hg
    have hylt := map_lt I hg
    by_cases hp : (partL '/' (stripLead '/' ref)).2 = []
    · have hr : collectionMake1 h c ref = (h, .ok y) := by simp [collectionMake1, hg, hp]
      rw [hr] at hIm ⊢
      refine ⟨Grow.refl h, ?_⟩
      intro x hx h2 G2
      simp at hx; subst hx
      have hg2 : dictGet (h2.obj c).map (String.ofList (partL '/' (stripLead '/' ref)).1) = some y := by
        rcases G2.map c hc (String.ofList (partL '/' (stripLead '/' ref)).1) with h3 | ⟨h3, _⟩
        · rw [h3, hg]
        · simp only at h3; rw [hg] at h3; simp at h3
      exact finish y h2 (by rw [G2.cls c hc]; exact hcc)
            (by rw [G2.cls y hylt]; exact hy) hg2 y (fun h => absurd hp h) (fun _ => rfl)
    · have hr : collectionMake1 h c ref =
          packageMake ((partL '/' (stripLead '/' ref)).2.length + 1) h y
            (partL '/' (stripLead '/' ref)).2 := by simp [collectionMake1, hg, hp]
      obtain ⟨G, K⟩ := packageMake_spec ((partL '/' (stripLead '/' ref)).2.length + 1) I hylt hy
        (partL '/' (stripLead '/' ref)).2 (by omega)
      rw [hr] at hIm ⊢
      refine ⟨G, ?_⟩
      intro x hx h2 G2
      have G3 := G.trans G2
      have hg2 : dictGet (h2.obj c).map (String.ofList (partL '/' (stripLead '/' ref)).1) = some y := by
        rcases G3.map c hc (String.ofList (partL '/' (stripLead '/' ref)).1) with h3 | ⟨h3, _⟩
        · rw [h3, hg]
        · rw [hg] at h3; simp at h3
      exact finish y h2 (by rw [G3.cls c hc]; exact hcc)
            (by rw [G3.cls y hylt]; exact hy) hg2 x (fun _ => K x hx h2 hIm G2)
            (fun h => absurd h hp)
  | none =>
    rcases collectionCreate_cases h c (String.ofList (partL '/' (stripLead '/' ref)).1) hc with
      ⟨h1, _⟩ | ⟨hd, C, h2⟩
    · simp [dictHas, hg] at h1
    have hI := inv_created I hc (by simp [hcc, Cls.isContainer]) hd C
    have hG := grow_created I hc hd C
    have hnx := created_next C
    have hnc := created_new_cls C
    have hgm : dictGet ((collectionCreate h c
          (String.ofList (partL '/' (stripLead '/' ref)).1)).1.obj c).map
        (String.ofList (partL '/' (stripLead '/' ref)).1) = some h.next := by
      rw [C.map, alloc_obj_new]; simp [dictGet_set]
    have hcr : collectionCreate h c (String.ofList (partL '/' (stripLead '/' ref)).1) =
      ((collectionCreate h c (String.ofList (partL '/' (stripLead '/' ref)).1)).1, .ok (.obj h.next)) :=
      Prod.ext rfl h2
    generalize (collectionCreate h c (String.ofList (partL '/' (stripLead '/' ref)).1)).1 = h1 at *
    by_cases hp : (partL '/' (stripLead '/' ref)).2 = []
    · have hr : collectionMake1 h c ref = (h1, .ok h.next) := by
        simp [collectionMake1, hg, hp, hcr]
      rw [hr] at hIm ⊢
      refine ⟨hG, ?_⟩
      intro x hx h2 G2
      simp at hx; subst hx
      have hg2 : dictGet (h2.obj c).map (String.ofList (partL '/' (stripLead '/' ref)).1)
          = some h.next := by
        rcases G2.map c (by simp only; omega) (String.ofList (partL '/' (stripLead '/' ref)).1) with
          h3 | ⟨h3, _⟩
        · rw [h3, hgm]
        · simp only at h3; rw [hgm] at h3; simp at h3
      exact finish h.next h2 (by rw [(hG.trans G2).cls c hc]; exact hcc)
        (by rw [G2.cls _ (by simp only; omega)]; exact hnc) hg2 _ (fun h => absurd hp h) (fun _ => rfl)
    · have hr : collectionMake1 h c ref =
          packageMake ((partL '/' (stripLead '/' ref)).2.length + 1) h1 h.next
            (partL '/' (stripLead '/' ref)).2 := by simp [collectionMake1, hg, hp, hcr]
      obtain ⟨G, K⟩ := packageMake_spec ((partL '/' (stripLead '/' ref)).2.length + 1) hI
        (c := h.next) (by omega) hnc (partL '/' (stripLead '/' ref)).2 (by omega)
      rw [hr] at hIm ⊢
      refine ⟨hG.trans G, ?_⟩
      intro x hx h2 G2
      have G3 := G.trans G2
      have hg2 : dictGet (h2.obj c).map (String.ofList (partL '/' (stripLead '/' ref)).1)
          = some h.next := by
        rcases G3.map c (by omega) (String.ofList (partL '/' (stripLead '/' ref)).1) with h3 | ⟨h3, _⟩
        · rw [h3, hgm]
        · rw [hgm] at h3; simp at h3
      exact finish h.next h2 (by rw [(hG.trans G3).cls c hc]; exact hcc)
        (by rw [G3.cls _ (by omega)]; exact hnc) hg2 x (fun _ => K x hx h2 hIm G2)
        (fun h => absurd h hp)

theorem collectionMake_spec : ∀ (refs : List String) {h : Heap} (_ : Inv h) {c : Oid}
    (_ : c < h.next) (_ : (h.obj c).cls = .collection),
    Inv (collectionMake h c refs).1 ∧ Grow h (collectionMake h c refs).1
  | [], h, I, c, hc, hcc => ⟨I, Grow.refl h⟩
  | r :: rs, h, I, c, hc, hcc => by
    have h1 := inv_collectionMake1 I hc hcc r.toList
    have h2 := (collectionMake1_spec I hc hcc r.toList).1
    unfold collectionMake
    generalize collectionMake1 h c r.toList = q at *
    obtain ⟨q1, q2⟩ := q
    cases q2 with
    | error e => exact ⟨h1, h2⟩
    | ok x =>
      obtain ⟨h3, h4⟩ := collectionMake_spec rs h1 (c := c)
        (by have := h2.next; simp only at this ⊢; omega)
        (by simp only at h2 ⊢; rw [h2.cls c hc]; exact hcc)
      simp only at h1 h2 h3 h4 ⊢
      generalize collectionMake q1 c rs = w at *
      obtain ⟨w1, w2⟩ := w
      cases w2 <;> exact ⟨h3, h2.trans h4⟩

end Verif.Pkg
