import Verif.Pkg.Grow
/-
The invariant holds after every history of calls.
-/
set_option linter.unusedSimpArgs false
set_option linter.unusedVariables false

namespace Verif.Pkg
open Verif.Py

/-- Pointwise description of storing member `m` in element `e`. -/
structure MemberAdded (h h' : Heap) (e m p : Oid) (setsParent : Bool) : Prop where
  next : h'.next = h.next
  cls : ∀ j, (h'.obj j).cls = (h.obj j).cls
  name : ∀ j, (h'.obj j).name = (h.obj j).name
  packages : ∀ j, (h'.obj j).packages = (h.obj j).packages
  elements : ∀ j, (h'.obj j).elements = (h.obj j).elements
  map : ∀ j, (h'.obj j).map = (h.obj j).map
  parent : ∀ j, (h'.obj j).parent =
    if j = m ∧ setsParent = true then some p else (h.obj j).parent
  mem : ∀ j i, i ∈ members h' j ↔ i ∈ members h j ∨ (j = e ∧ i = m)
  other : ∀ j, j ≠ e → j ≠ m → h'.obj j = h.obj j

theorem inv_memberAdded {h h' : Heap} {e m p : Oid} {b : Bool} (I : Inv h)
    (A : MemberAdded h h' e m p b) (he : e < h.next) (hm : m < h.next) {k : MemberKind}
    (hmc : (h.obj m).cls = .member k) {ek : ElemKind} (hec : (h.obj e).cls = .element ek)
    (hp : p = e ∨ (p = m ∧ k = .modeTrans))
    (hswc : ek = .swc → (h'.obj e).slotA = [] ∧ (h'.obj e).slotB = [])
    (hmode : ek = .modeGroup → (h'.obj e).slotC = [])
    (himpl : ek = .implType → (h'.obj e).slotB = [] ∧ (h'.obj e).slotC = [])
    (hplain : ek ≠ .plain)
    (hother : ∀ j, j ≠ e → (h'.obj j).slotA = (h.obj j).slotA ∧ (h'.obj j).slotB = (h.obj j).slotB ∧
      (h'.obj j).slotC = (h.obj j).slotC) : Inv h' := by
  have hcont : ∀ j, contents h' j = contents h j := by
    intro j; simp [contents, A.packages, A.elements]
  have hname : (fun i => (h'.obj i).name) = (fun i => (h.obj i).name) := by
    funext i; exact A.name i
  constructor
  · intro i hi
    rw [A.next] at hi
    rw [A.other i (by omega) (by omega)]; exact I.fresh i hi
  · intro i hi
    rw [A.cls] at hi
    rw [A.parent]
    split
    · rename_i hh; rw [hh.1, hmc] at hi; simp at hi
    · exact I.coll_parent i hi
  · intro c j hj; rw [A.packages] at hj; rw [A.next, A.cls]; exact I.pkgs_cls c j hj
  · intro c j hj; rw [A.elements] at hj; rw [A.next, A.cls]; exact I.elems_cls c j hj
  · intro c hc; rw [A.cls] at hc; rw [A.elements]; exact I.coll_elems c hc
  · intro c hc; rw [A.cls] at hc; rw [hcont, A.map]; exact I.non_container c hc
  · intro c n j; rw [A.map, hcont, A.name]; exact I.map_iff c n j
  · intro c; rw [hcont, hname]; exact I.nodup c
  · intro x q hq hx
    rw [A.cls] at hx
    rw [A.parent] at hq
    split at hq
    · rename_i hh; rw [hh.1, hmc] at hx; simp [Cls.isItem] at hx
    · rw [A.next, A.cls, hcont]; exact I.item_parent x q hq hx
  · intro x q k' hq hx
    rw [A.cls] at hx
    rw [A.parent] at hq
    rw [A.next, A.cls]
    split at hq
    · rename_i hh
      have e1 := hh.1
      subst e1
      injection hq with hq; subst hq
      rw [hmc] at hx; injection hx with hx; subst hx
      rcases hp with hp | ⟨hp, hk⟩
      · subst hp
        exact ⟨he, Or.inr ⟨ek, hec, (A.mem p x).2 (Or.inr ⟨rfl, rfl⟩)⟩⟩
      · subst hp; exact ⟨hm, Or.inl ⟨rfl, hk⟩⟩
    · obtain ⟨h1, h2⟩ := I.member_parent x q k' hq hx
      refine ⟨h1, ?_⟩
      rcases h2 with h2 | ⟨ek', h2, h3⟩
      · exact Or.inl h2
      · exact Or.inr ⟨ek', h2, (A.mem q x).2 (Or.inl h3)⟩
  · intro e' m' hm'
    rw [A.next, A.cls]
    rcases (A.mem e' m').1 hm' with h1 | ⟨_, rfl⟩
    · exact I.members_lt e' m' h1
    · exact ⟨hm, k, hmc⟩
  · intro e' he'
    rw [A.cls] at he'
    by_cases ee : e' = e
    · subst ee; rw [hec] at he'; injection he' with he'; exact hswc he'
    · obtain ⟨a, b, _⟩ := hother e' ee
      rw [a, b]; exact I.slots_swc e' he'
  · intro e' he'
    rw [A.cls] at he'
    by_cases ee : e' = e
    · subst ee; rw [hec] at he'; injection he' with he'; exact hmode he'
    · obtain ⟨_, _, c⟩ := hother e' ee
      rw [c]; exact I.slots_mode e' he'
  · intro e' he'
    rw [A.cls] at he'
    by_cases ee : e' = e
    · subst ee; rw [hec] at he'; injection he' with he'; exact himpl he'
    · obtain ⟨_, b, c⟩ := hother e' ee
      rw [b, c]; exact I.slots_impl e' he'
  · intro e' he'
    rw [A.cls] at he'
    by_cases ee : e' = e
    · subst ee; rw [hec] at he'; injection he' with he'; exact absurd he' hplain
    · obtain ⟨a, b, c⟩ := hother e' ee
      simp only [members, a, b, c]; exact I.slots_plain e' he'

theorem inv_addMember {h : Heap} (I : Inv h) {e m : Oid} (he : e < h.next) (hm : m < h.next) :
    Inv (addMember h e m).1 := by
  have hne : ∀ {ek k}, (h.obj e).cls = .element ek → (h.obj m).cls = .member k → e ≠ m := by
    intro ek k h1 h2 h3; subst h3; rw [h1] at h2; simp at h2
  unfold addMember
  split
  · rename_i h1 h2
    have hn := hne h1 h2
    refine inv_memberAdded (e := e) (m := m) (p := e) (b := false) I ?_ he hm h2 h1 (Or.inl rfl)
      ?_ ?_ ?_ (by simp) ?_
    · constructor <;> intros <;> simp [Heap.set, members] <;> grind
    all_goals simp [Heap.set]
    · exact I.slots_impl e h1
    · intro j hj; simp [hj]
  · rename_i h1 h2
    have hn := hne h1 h2
    refine inv_memberAdded (e := e) (m := m) (p := e) (b := true) I ?_ he hm h2 h1 (Or.inl rfl)
      ?_ ?_ ?_ (by simp) ?_
    · constructor <;> intros <;> simp [Heap.set, setParent, members, hn, Ne.symm hn] <;> grind
    all_goals simp [Heap.set, setParent, hn]
    · exact I.slots_mode e h1
    · intro j hj; simp [hj]; split <;> simp_all
  · rename_i h1 h2
    have hn := hne h1 h2
    refine inv_memberAdded (e := e) (m := m) (p := m) (b := true) I ?_ he hm h2 h1
      (Or.inr ⟨rfl, rfl⟩) ?_ ?_ ?_ (by simp) ?_
    · constructor <;> intros <;> simp [Heap.set, setParent, members, hn, Ne.symm hn] <;> grind
    all_goals simp [Heap.set, setParent, hn]
    · exact I.slots_mode e h1
    · intro j hj; simp [hj]; split <;> simp_all
  · rename_i h1 h2
    have hn := hne h1 h2
    refine inv_memberAdded (e := e) (m := m) (p := e) (b := true) I ?_ he hm h2 h1 (Or.inl rfl)
      ?_ ?_ ?_ (by simp) ?_
    · constructor <;> intros <;> simp [Heap.set, setParent, members, hn, Ne.symm hn] <;> grind
    all_goals simp [Heap.set, setParent, hn]
    · intro j hj; simp [hj]; split <;> simp_all
  · rename_i h1 h2
    have hn := hne h1 h2
    refine inv_memberAdded (e := e) (m := m) (p := e) (b := true) I ?_ he hm h2 h1 (Or.inl rfl)
      ?_ ?_ ?_ (by simp) ?_
    · constructor <;> intros <;> simp [Heap.set, setParent, members, hn, Ne.symm hn] <;> grind
    all_goals simp [Heap.set, setParent, hn]
    · intro j hj; simp [hj]; split <;> simp_all
  · rename_i h1 h2
    have hn := hne h1 h2
    refine inv_memberAdded (e := e) (m := m) (p := e) (b := true) I ?_ he hm h2 h1 (Or.inl rfl)
      ?_ ?_ ?_ (by simp) ?_
    · constructor <;> intros <;> simp [Heap.set, setParent, members, hn, Ne.symm hn] <;> grind
    all_goals simp [Heap.set, setParent, hn]
    · intro j hj; simp [hj]; split <;> simp_all
  · rename_i h1 h2
    have hn := hne h1 h2
    refine inv_memberAdded (e := e) (m := m) (p := e) (b := true) I ?_ he hm h2 h1 (Or.inl rfl)
      ?_ ?_ ?_ (by simp) ?_
    · constructor <;> intros <;> simp [Heap.set, setParent, members, hn, Ne.symm hn] <;> grind
    all_goals simp [Heap.set, setParent, hn]
    · exact I.slots_swc e h1
    · intro j hj; simp [hj]; split <;> simp_all
  · exact I

theorem inv_step {h : Heap} (I : Inv h) (op : Op) : Inv (step h op) := by
  unfold step
  split
  · rename_i hv
    cases op with
    | new cls name => exact inv_alloc I cls name
    | append c x => exact inv_append I hv.1 hv.2
    | addMember e m => exact inv_addMember I hv.1 hv.2
    | createPackage c name => exact inv_createPackage I hv name
    | packageMake c ref => exact inv_packageMake _ I hv.1 hv.2 _
    | collectionMake c refs => exact (collectionMake_spec refs I hv.1 hv.2).1
  · exact I

theorem inv_run (ops : List Op) : ∀ {h : Heap}, Inv h → Inv (run h ops) := by
  induction ops with
  | nil => intro h I; exact I
  | cons op ops ih => intro h I; exact ih (inv_step I op)

/-- A heap some history of calls can build. -/
def Reachable (h : Heap) : Prop := ∃ ops, h = run Heap.empty ops

theorem Reachable.inv {h : Heap} (r : Reachable h) : Inv h := by
  obtain ⟨ops, rfl⟩ := r; exact inv_run ops inv_empty

end Verif.Pkg
