import Verif.Work.Docs
import Verif.Work.TemplateLemmas
set_option linter.unusedSimpArgs false
set_option linter.unusedVariables false
namespace Verif.Work
open Verif.Py Verif.Pkg Verif.Pkg.Spec

/-! ### Parent paths -/

theorem parentPath_unique {h : Heap} (I : Inv h) {c c' x : Nat} {ns ns' : List String}
    (a : ParentPath h c ns x) (b : ParentPath h c' ns' x) : ns = ns' ∧ c = c' := by
  induction a generalizing ns' with
  | top h1 h2 =>
    cases b with
    | top h3 h4 => rw [h1] at h3; simp at h3; exact ⟨rfl, h3⟩
    | under p h3 =>
      rw [h1] at h3; simp only [Option.some.injEq] at h3; subst h3
      exact absurd h2 (parentPath_not_coll I p)
  | under p h1 ih =>
    cases b with
    | top h3 h4 =>
      rw [h1] at h3; simp only [Option.some.injEq] at h3; subst h3
      exact absurd h4 (parentPath_not_coll I p)
    | under q h3 =>
      rw [h1] at h3; simp only [Option.some.injEq] at h3; subst h3
      obtain ⟨e1, e2⟩ := ih q
      exact ⟨by rw [e1], e2⟩

theorem parentPath_not_detached {h : Heap} (I : Inv h) {c x : Nat} {ns : List String}
    (a : ParentPath h c ns x) (d : Detached h x) : False := by
  have := refReturns_det (refReturns_of_path I a) (refReturns_of_detached I d)
  simp at this

theorem parentPath_lt {h : Heap} (I : Inv h) {c x : Nat} {ns : List String}
    (a : ParentPath h c ns x) : x < h.next := by
  obtain ⟨q, hq⟩ := parentPath_parent a
  by_cases hlt : x < h.next
  · exact hlt
  · rw [I.fresh x (Nat.le_of_not_lt hlt)] at hq; simp [Obj.blank] at hq

theorem nodup_bound : ∀ (n : Nat) (l : List Nat), l.Nodup → (∀ x ∈ l, x < n) → l.length ≤ n := by
  intro n
  induction n with
  | zero =>
    intro l _ h
    cases l with
    | nil => simp
    | cons a l => exact absurd (h a (by simp)) (by omega)
  | succ n ih =>
    intro l hn h
    by_cases hm : n ∈ l
    · have h1 := ih (l.erase n) (hn.erase n) (by
        intro x hx
        have hx' := List.mem_of_mem_erase hx
        have := h x hx'
        have hne : x ≠ n := by
          intro e; subst e
          exact (List.Nodup.not_mem_erase hn) hx
        omega)
      rw [List.length_erase_of_mem hm] at h1
      omega
    · have := ih l hn (by
        intro x hx
        have h1 := h x hx
        have hne : x ≠ n := by intro e; subst e; exact hm hx
        omega)
      omega

/-- The objects along a parent path. -/
theorem parentPath_chain {h : Heap} (I : Inv h) {c x : Nat} {ns : List String}
    (a : ParentPath h c ns x) : ∃ l : List Nat, l.length = ns.length ∧ l.Nodup ∧
      ∀ y ∈ l, y < h.next ∧ ∃ ms, ParentPath h c ms y ∧ ms.length ≤ ns.length := by
  induction a with
  | @top x h1 h2 =>
    exact ⟨[x], by simp, by simp, by
      intro y hy; rw [List.mem_singleton] at hy; subst hy
      exact ⟨parentPath_lt I (.top h1 h2), _, .top h1 h2, by simp⟩⟩
  | @under ns p x hp h1 ih =>
    obtain ⟨l, e1, e2, e3⟩ := ih
    refine ⟨x :: l, by simp [e1], ?_, ?_⟩
    · rw [List.nodup_cons]
      refine ⟨?_, e2⟩
      intro hx
      obtain ⟨_, ms, hms, hle⟩ := e3 x hx
      have := (parentPath_unique I hms (.under hp h1)).1
      rw [this] at hle
      simp at hle
      omega
    · intro y hy
      rcases List.mem_cons.mp hy with rfl | hy
      · exact ⟨parentPath_lt I (.under hp h1), _, .under hp h1, by simp⟩
      · obtain ⟨h2, ms, h3, h4⟩ := e3 y hy
        exact ⟨h2, ms, h3, by simp; omega⟩

theorem parentPath_length {h : Heap} (I : Inv h) {c x : Nat} {ns : List String}
    (a : ParentPath h c ns x) : ns.length ≤ h.next := by
  obtain ⟨l, e1, e2, e3⟩ := parentPath_chain I a
  rw [← e1]
  exact nodup_bound _ l e2 (fun y hy => (e3 y hy).1)

theorem updateRefParts_path' {h : Heap} (I : Inv h) {c x : Nat} {ns : List String}
    (p : ParentPath h c ns x) :
    updateRefParts (ns.length + 1) h x = some (ns.reverse.map some ++ [some ""]) := by
  induction p with
  | @top x h1 h2 =>
    have hx := parentPath_not_coll I (.top h1 h2)
    simp only [List.length_singleton, Nat.reduceAdd, updateRefParts, h1, h2]
    cases hc : (h.obj x).cls <;> simp_all
  | @under ns p x hp h2 ih =>
    have hx := parentPath_not_coll I (.under hp h2)
    rw [List.length_append, List.length_singleton]
    rw [updateRefParts.eq_def]
    simp only [h2, ih]
    cases hcls : (h.obj x).cls <;> simp_all

theorem refText_path {h : Heap} (I : Inv h) {c x : Nat} {ns : List String}
    (p : ParentPath h c ns x) : refText h x = .ok (absRef ns) := by
  have hlen := parentPath_length I p
  obtain ⟨f, hf⟩ := refReturns_of_path I p
  have : ∃ r, calcRef (h.next + 2) h x = some r := by
    cases p with
    | top h1 h2 => exact ⟨_, by simp only [calcRef, h1, updateRefParts, h2]; rfl⟩
    | @under ns p _ hp h2 =>
      have h3 := updateRefParts_path' I hp
      have h4 := updateRefParts_mono _ (h.next + 2) p _ (by
        simp only [List.length_append, List.length_singleton] at hlen; omega) h3
      cases hq : calcRef (h.next + 2) h x with
      | some r => exact ⟨r, rfl⟩
      | none =>
        simp only [calcRef, h2, h4] at hq
        split at hq <;> simp at hq
  obtain ⟨r, hr⟩ := this
  have := refReturns_det ⟨_, hr⟩ ⟨f, hf⟩
  subst this
  simp [refText, hr]

/-! ### What writing leaves alone -/

/-- Everything of an object but its parent. -/
def bare (o : Obj) : Obj := { o with parent := none }

/-- Old objects outside `D` keep everything but their parent. -/
structure Aside (D : Nat → Prop) (h h' : Heap) : Prop where
  next : h.next ≤ h'.next
  cls : ∀ i, i < h.next → (h'.obj i).cls = (h.obj i).cls
  name : ∀ i, i < h.next → (h'.obj i).name = (h.obj i).name
  same : ∀ i, i < h.next → ¬ D i → bare (h'.obj i) = bare (h.obj i)

theorem Aside.refl (D : Nat → Prop) (h : Heap) : Aside D h h :=
  ⟨Nat.le_refl _, fun _ _ => rfl, fun _ _ => rfl, fun _ _ _ => rfl⟩

theorem Aside.trans {D : Nat → Prop} {a b c : Heap} (x : Aside D a b) (y : Aside D b c) :
    Aside D a c where
  next := Nat.le_trans x.next y.next
  cls i hi := (y.cls i (Nat.lt_of_lt_of_le hi x.next)).trans (x.cls i hi)
  name i hi := (y.name i (Nat.lt_of_lt_of_le hi x.next)).trans (x.name i hi)
  same i hi hd := (y.same i (Nat.lt_of_lt_of_le hi x.next) hd).trans (x.same i hi hd)

theorem Aside.mono {D E : Nat → Prop} {a b : Heap} (x : Aside D a b) (h : ∀ i, i < a.next → D i → E i) :
    Aside E a b :=
  ⟨x.next, x.cls, x.name, fun i hi hd => x.same i hi (fun hD => hd (h i hi hD))⟩

theorem bare_fields {o o' : Obj} (h : bare o' = bare o) : o'.cls = o.cls ∧ o'.name = o.name ∧
    o'.packages = o.packages ∧ o'.elements = o.elements ∧ o'.map = o.map ∧ o'.slotA = o.slotA ∧
    o'.slotB = o.slotB ∧ o'.slotC = o.slotC := by
  unfold bare at h
  simp only [Obj.mk.injEq] at h
  simp_all

theorem aside_attached {h h' : Heap} {c x : Nat} (A : Attached h h' c x) :
    Aside (fun i => i = c) h h' where
  next := by rw [A.next]; exact Nat.le_refl _
  cls i _ := A.cls i
  name i _ := A.name i
  same i _ hi := by
    unfold bare
    have h1 := A.cls i
    have h2 := A.name i
    have h3 := A.packages i
    have h4 := A.elements i
    have h5 := A.map i
    have h6 := A.slotA i
    have h7 := A.slotB i
    have h8 := A.slotC i
    simp only [hi, false_and, if_false] at h3 h4 h5
    simp [h1, h2, h3, h4, h5, h6, h7, h8]

theorem aside_packageAppend (h : Heap) (c x : Nat) : Aside (fun i => i = c) h (packageAppend h c x).1 := by
  rcases packageAppend_cases h c x with ⟨h1, _⟩ | ⟨A, _, _, _⟩
  · rw [h1]; exact Aside.refl _ _
  · exact aside_attached A

theorem aside_collectionAppend (h : Heap) (c x : Nat) :
    Aside (fun i => i = c) h (collectionAppend h c x).1 := by
  rcases collectionAppend_cases h c x with h1 | ⟨A, _, _, _⟩
  · rw [h1]; exact Aside.refl _ _
  · exact aside_attached A

theorem aside_alloc (D : Nat → Prop) (h : Heap) (cls : Cls) (name : String) :
    Aside D h (h.alloc cls name) where
  next := Nat.le_succ _
  cls i hi := by rw [alloc_obj_ne _ _ _ (Nat.ne_of_lt hi)]
  name i hi := by rw [alloc_obj_ne _ _ _ (Nat.ne_of_lt hi)]
  same i hi _ := by rw [alloc_obj_ne _ _ _ (Nat.ne_of_lt hi)]

theorem firstNamed_aside {D : Nat → Prop} {h h' : Heap} (A : Aside D h h') {l : List Nat}
    (hl : ∀ j ∈ l, j < h.next) (n : String) : firstNamed h' l n = firstNamed h l n := by
  unfold firstNamed
  induction l with
  | nil => rfl
  | cons x l ih =>
    simp only [List.find?_cons]
    rw [A.name x (hl x (by simp)), ih (fun j hj => hl j (by simp [hj]))]

theorem findAux_aside {D : Nat → Prop} {h h' : Heap} (I : Inv h)
    (hD : ∀ i, D i → i < h.next → (h.obj i).cls = .collection) (A : Aside D h h') :
    ∀ (n : Nat) (c : Nat) (s : List Char), c < h.next → ¬ D c →
      findAux n h' c s = findAux n h c s := by
  intro n
  induction n with
  | zero => intro c s _ _; rfl
  | succ n ih =>
    intro c s hc hd
    unfold findAux
    have hb := bare_fields (A.same c hc hd)
    rw [hb.1]
    have hmem : ∀ j ∈ members h c, j < h.next := fun j hj => (I.members_lt c j hj).1
    have hA : ∀ n, firstNamed h' (h.obj c).slotA n = firstNamed h (h.obj c).slotA n :=
      fun n => firstNamed_aside A (fun j hj => hmem j (by simp [members, hj])) n
    have hB : ∀ n, firstNamed h' (h.obj c).slotB n = firstNamed h (h.obj c).slotB n :=
      fun n => firstNamed_aside A (fun j hj => hmem j (by simp [members, hj])) n
    have hC : ∀ n, firstNamed h' (h.obj c).slotC n = firstNamed h (h.obj c).slotC n :=
      fun n => firstNamed_aside A (fun j hj => hmem j (by simp [members, hj])) n
    have hcont : (match dictGet (h'.obj c).map (String.ofList (partL '/' (stripLead '/' s)).1) with
        | none => Except.ok none
        | some x => if (partL '/' (stripLead '/' s)).2 ≠ [] then
            findAux n h' x (partL '/' (stripLead '/' s)).2 else Except.ok (some x)) =
        (match dictGet (h.obj c).map (String.ofList (partL '/' (stripLead '/' s)).1) with
        | none => Except.ok none
        | some x => if (partL '/' (stripLead '/' s)).2 ≠ [] then
            findAux n h x (partL '/' (stripLead '/' s)).2 else Except.ok (some x)) := by
      rw [hb.2.2.2.2.1]
      cases hg : dictGet (h.obj c).map (String.ofList (partL '/' (stripLead '/' s)).1) with
      | none => rfl
      | some x =>
        simp only
        have hx := map_lt I hg
        have hxD : ¬ D x := by
          intro hxd
          have h1 := hD x hxd hx
          have h2 := (I.map_iff c _ x).1 hg
          simp only [contents, List.mem_append] at h2
          rcases h2.1 with h3 | h3
          · have := (I.pkgs_cls c x h3).2; rw [h1] at this; simp at this
          · obtain ⟨_, k, hk⟩ := I.elems_cls c x h3; rw [h1] at hk; simp at hk
        rw [ih x _ hx hxD]
    cases hcls : (h.obj c).cls with
    | collection => exact hcont
    | package => exact hcont
    | member k => rfl
    | element k =>
      simp only
      unfold elemFind
      rw [hb.2.2.2.2.2.1, hb.2.2.2.2.2.2.1, hb.2.2.2.2.2.2.2]
      cases k <;> simp only [hA, hB, hC]

theorem find_aside {D : Nat → Prop} {h h' : Heap} (I : Inv h)
    (hD : ∀ i, D i → i < h.next → (h.obj i).cls = .collection) (A : Aside D h h') {c : Nat}
    (hc : c < h.next) (hd : ¬ D c) (s : String) : find h' c s = find h c s :=
  findAux_aside I hD A _ c _ hc hd

end Verif.Work
