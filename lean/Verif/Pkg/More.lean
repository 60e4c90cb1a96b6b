import Verif.Pkg.Path
/-
Members of elements, success of `make_packages`, uniqueness of segmentation.
-/
set_option linter.unusedSimpArgs false
set_option linter.unusedVariables false

namespace Verif.Pkg
open Verif.Py Spec

theorem rootReturns_of_path {h : Heap} (I : Inv h) {c x : Oid} {ns : List String}
    (p : ParentPath h c ns x) : RootReturns h x (some c) := by
  induction p with
  | @top x h1 h2 =>
    refine ⟨2, ?_⟩
    simp [rootCollection, h1, I.coll_parent c h2, h2]
  | @under ns p x hp h2 ih =>
    obtain ⟨f, hf⟩ := ih
    exact ⟨f + 1, by simp [rootCollection, h2, hf]⟩

theorem findAux_slash {h : Heap} {c : Oid} (hc : IsContainer h c) (s : List Char)
    (hs : startsWithL '/' s = false) :
    findAux (('/' :: s).length + 1) h c ('/' :: s) = findAux (s.length + 1) h c s := by
  rw [isContainer_iff] at hc
  rw [find_unfold h c _ hc, find_unfold h c _ hc, stripLead_of_not _ _ hs]
  simp [stripLead]

theorem startsWith_good {n : String} (g : GoodName n) (t : List Char) :
    startsWithL '/' (n.toList ++ t) = false := by
  cases hl : n.toList with
  | nil => exact absurd hl (goodName_toList_ne g)
  | cons c cs =>
    have := g.2
    rw [hl] at this
    simp [startsWithL]
    intro e; subst e; simp at this

theorem relRef_toList (n : String) (ns : List String) :
    (relRef (n :: ns)).toList = n.toList ++ (absRef ns).toList := by simp [relRef]

theorem find_abs_rel {h : Heap} {c : Oid} (hc : IsContainer h c) {n : String} (ns : List String)
    (g : GoodName n) : find h c (absRef (n :: ns)) = find h c (relRef (n :: ns)) := by
  unfold find
  have : (absRef (n :: ns)).toList = '/' :: (relRef (n :: ns)).toList := by
    rw [absRef_eq_slash_rel]; simp
  rw [this, findAux_slash hc]
  rw [relRef_toList]; exact startsWith_good g _

/-- Below an element, `find` hands the rest of the reference to the element. -/
theorem find_rel_under_element {h : Heap} (I : Inv h) {e : Oid} {k : ElemKind}
    (hk : (h.obj e).cls = .element k) {post : List String} (hpost : post ≠ [])
    (gpost : ∀ n ∈ post, GoodName n) :
    ∀ {pre : List String} {c : Oid}, Contains h c pre e → (∀ n ∈ pre, GoodName n) →
    find h c (relRef (pre ++ post)) = elemFind h e k (relRef post).toList := by
  intro pre
  induction pre with
  | nil => intro c hc; exact absurd rfl (contains_ne_nil hc)
  | cons n ns ih =>
    intro c hc g
    have gn := g n (by simp)
    have hcc := contains_container I hc
    rw [isContainer_iff] at hcc
    obtain ⟨q, qs, hq⟩ : ∃ q qs, ns ++ post = q :: qs := by
      cases hl : ns ++ post with
      | nil => simp at hl; exact absurd hl.2 hpost
      | cons q qs => exact ⟨q, qs, rfl⟩
    have gq : GoodName q := by
      have : q ∈ ns ++ post := by rw [hq]; simp
      rcases List.mem_append.1 this with h1 | h1
      · exact g q (by simp [h1])
      · exact gpost q h1
    have hu : find h c (relRef ((n :: ns) ++ post)) =
        match dictGet (h.obj c).map n with
        | none => .ok none
        | some x => find h x (relRef (ns ++ post)) := by
      unfold find
      rw [find_unfold h c _ hcc]
      have e1 : (relRef ((n :: ns) ++ post)).toList = n.toList ++ '/' :: (relRef (ns ++ post)).toList := by
        rw [List.cons_append, hq, relRef_cons_toList]
      have e2 : stripLead '/' (relRef ((n :: ns) ++ post)).toList =
          n.toList ++ '/' :: (relRef (ns ++ post)).toList := by
        rw [e1, stripLead_of_not _ _ (startsWith_good gn _)]
      rw [e2, partL_append _ _ _ gn.2]
      have hne : (relRef (ns ++ post)).toList ≠ [] := by rw [hq]; exact relRef_toList_ne gq qs
      simp only [String.ofList_toList]
      cases hg : dictGet (h.obj c).map n with
      | none => simp
      | some x => simp only [hne, ne_eq, not_false_eq_true, if_true]
    rw [hu]
    cases hc with
    | here h1 h2 =>
      rw [(map_holds I c n e).2 ⟨h1, h2⟩]
      simp [find, findAux, hk]
    | down h1 h2 h3 =>
      rename_i p
      rw [(map_holds I c n p).2 ⟨Or.inl h1, h2⟩]
      exact ih h3 (fun m hm => g m (by simp [hm]))

theorem firstNamed_unique {h : Heap} {l : List Oid} {m : Oid} (hm : m ∈ l)
    (hu : ∀ m' ∈ l, (h.obj m').name = (h.obj m).name → m' = m) :
    firstNamed h l (h.obj m).name = some m := by
  unfold firstNamed
  induction l with
  | nil => simp at hm
  | cons a l ih =>
    by_cases e : (h.obj a).name = (h.obj m).name
    · have := hu a (by simp) e; subst this; simp
    · simp only [List.find?_cons, e, decide_false]
      have hne : m ≠ a := by rintro rfl; exact e rfl
      have : m ∈ l := by simp at hm; exact hm.resolve_left hne
      exact ih this (fun m' hm' => hu m' (by simp [hm']))

theorem firstNamed_none {h : Heap} {l : List Oid} {n : String}
    (hn : ∀ m ∈ l, (h.obj m).name ≠ n) : firstNamed h l n = none := by
  unfold firstNamed
  rw [List.find?_eq_none]
  intro m hm; simp [hn m hm]

theorem firstNamed_unique_or {h : Heap} {l : List Oid} {m : Oid}
    (hu : ∀ m' ∈ l, (h.obj m').name = (h.obj m).name → m' = m) :
    firstNamed h l (h.obj m).name = if m ∈ l then some m else none := by
  split
  · rename_i hm; exact firstNamed_unique hm hu
  · rename_i hm
    exact firstNamed_none (fun m' h1 h2 => hm (by rw [← hu m' h1 h2]; exact h1))

theorem elemFind_member {h : Heap} (I : Inv h) {e m : Oid} {k : ElemKind}
    (hk : (h.obj e).cls = .element k) (hm : m ∈ members h e) (gm : '/' ∉ (h.obj m).name.toList)
    (hu : ∀ m' ∈ members h e, (h.obj m').name = (h.obj m).name → m' = m) :
    elemFind h e k (h.obj m).name.toList = .ok (some m) := by
  have uA := firstNamed_unique_or (h := h) (l := (h.obj e).slotA) (m := m)
    (fun m' h1 => hu m' (by simp [members, h1]))
  have uB := firstNamed_unique_or (h := h) (l := (h.obj e).slotB) (m := m)
    (fun m' h1 => hu m' (by simp [members, h1]))
  have uC := firstNamed_unique_or (h := h) (l := (h.obj e).slotC) (m := m)
    (fun m' h1 => hu m' (by simp [members, h1]))
  have hp := partL_no_sep '/' _ gm
  cases k with
  | plain => rw [I.slots_plain e hk] at hm; simp at hm
  | implType =>
    obtain ⟨h1, h2⟩ := I.slots_impl e hk
    simp [members, h1, h2] at hm
    simp [elemFind, gm, uA, hm]
  | modeGroup =>
    have h1 := I.slots_mode e hk
    simp [members, h1] at hm
    simp only [elemFind, String.ofList_toList, uA, uB]
    by_cases ha : m ∈ (h.obj e).slotA
    · simp [ha]
    · simp [ha] at hm; simp [ha, hm]
  | swc =>
    obtain ⟨h1, h2⟩ := I.slots_swc e hk
    simp [members, h1, h2] at hm
    simp [elemFind, hp, uC, hm]
  | composition =>
    simp [members] at hm
    simp only [elemFind, hp, String.ofList_toList, uA, uB, uC]
    by_cases ha : m ∈ (h.obj e).slotA
    · simp [ha]
    · by_cases hb : m ∈ (h.obj e).slotB
      · simp [ha, hb]
      · simp [ha, hb] at hm; simp [ha, hb, hm]

/-- Segmentation is unique. -/
theorem segment_append_inj {s s' t t' : List Char} {n n' : String} (a : Segment s n)
    (b : Segment s' n') (ht : t = [] ∨ ∃ r, t = '/' :: r) (ht' : t' = [] ∨ ∃ r, t' = '/' :: r)
    (e : s ++ t = s' ++ t') : n = n' ∧ t = t' := by
  have h1 := segment_strip a t ht
  have h2 := segment_strip b t' ht'
  rw [e, h2] at h1
  have na := segment_noslash a
  have nb := segment_noslash b
  have : n.toList = n'.toList ∧ t = t' := by
    rcases ht with rfl | ⟨r, rfl⟩ <;> rcases ht' with rfl | ⟨r', rfl⟩
    · simp at h1; simp [h1]
    · simp at h1; rw [← h1] at na; simp at na
    · simp at h1; rw [h1] at nb; simp at nb
    · have e1 := partL_append '/' _ r na
      have e2 := partL_append '/' _ r' nb
      rw [← h1, e2] at e1
      simp at e1
      simp [e1]
  exact ⟨toList_inj this.1, this.2⟩

theorem segment_ne_nil {s : List Char} {n : String} (a : Segment s n) : s ≠ [] := by
  cases a with
  | plain g => exact goodName_toList_ne g
  | slash _ => simp

theorem denotes_unique {s : List Char} {segs segs' : List String} (a : Denotes s segs)
    (b : Denotes s segs') : segs = segs' := by
  induction a generalizing segs' with
  | empty =>
    generalize hs : ([] : List Char) = s at b
    cases b with
    | empty => rfl
    | last sg => exact absurd hs.symm (segment_ne_nil sg)
    | trail sg => simp at hs
    | more _ _ _ => simp at hs
  | @last s n sg =>
    generalize hs : s = s1 at b
    cases b with
    | empty => exact absurd hs (segment_ne_nil sg)
    | last sg' =>
      have := segment_append_inj sg sg' (t := []) (t' := []) (Or.inl rfl) (Or.inl rfl) (by simp [hs])
      rw [this.1]
    | trail sg' =>
      have := segment_append_inj sg sg' (t := []) (t' := ['/']) (Or.inl rfl) (Or.inr ⟨_, rfl⟩)
        (by simpa using hs)
      simp at this
    | more sg' _ _ =>
      have := segment_append_inj sg sg' (t := []) (Or.inl rfl) (Or.inr ⟨_, rfl⟩) (by simpa using hs)
      simp at this
  | @trail s n sg =>
    generalize hs : s ++ ['/'] = s1 at b
    cases b with
    | empty => simp at hs
    | last sg' =>
      have := segment_append_inj sg sg' (t := ['/']) (t' := []) (Or.inr ⟨_, rfl⟩) (Or.inl rfl)
        (by simpa using hs)
      simp at this
    | trail sg' =>
      have := segment_append_inj sg sg' (t := ['/']) (t' := ['/']) (Or.inr ⟨_, rfl⟩)
        (Or.inr ⟨_, rfl⟩) hs
      rw [this.1]
    | more sg' _ hne =>
      have := segment_append_inj sg sg' (t := ['/']) (Or.inr ⟨_, rfl⟩) (Or.inr ⟨_, rfl⟩) hs
      simp at this
      exact absurd this.2 hne
  | @more s rest n ns sg d hne ih =>
    generalize hs : s ++ '/' :: rest = s1 at b
    cases b with
    | empty => simp at hs
    | last sg' =>
      have := segment_append_inj sg sg' (t := '/' :: rest) (t' := []) (Or.inr ⟨_, rfl⟩) (Or.inl rfl)
        (by simpa using hs)
      simp at this
    | trail sg' =>
      have := segment_append_inj sg sg' (t := '/' :: rest) (t' := ['/']) (Or.inr ⟨_, rfl⟩)
        (Or.inr ⟨_, rfl⟩) hs
      simp at this
      exact absurd this.2 hne
    | more sg' d' _ =>
      have := segment_append_inj sg sg' (t := '/' :: rest) (Or.inr ⟨_, rfl⟩) (Or.inr ⟨_, rfl⟩) hs
      simp at this
      obtain ⟨h1, h2⟩ := this
      subst h1; subst h2
      rw [ih d']

/-! ### success of make_packages -/

theorem new_pkg_empty {h h' : Heap} {c : Oid} {name : String} (hc : c < h.next)
    (C : Created h h' c name) : contents h' h.next = [] := by
  have : h.next ≠ c := by omega
  simp [contents, C.packages, C.elements, alloc_obj_new, this]

theorem packageMake_rel :
    ∀ (segs : List String) {h : Heap} (_ : Inv h) {c : Oid} (_ : c < h.next)
      (_ : (h.obj c).cls = .package) (fuel : Nat), segs ≠ [] → (∀ n ∈ segs, GoodName n) →
      (relRef segs).toList.length + 1 ≤ fuel →
      ((∃ pre post e k, segs = pre ++ post ∧ Contains h c pre e ∧ (h.obj e).cls = .element k) ∧
        packageMake fuel h c (relRef segs).toList = (h, .error .keyError)) ∨
      ((∀ pre post e, segs = pre ++ post → Contains h c pre e → (h.obj e).cls = .package) ∧
        ∃ x, (packageMake fuel h c (relRef segs).toList).2 = .ok x) := by
  intro segs
  induction segs with
  | nil => intro h I c hc hcc fuel hne; exact absurd rfl hne
  | cons n ns ih =>
    intro h I c hc hcc fuel _ g hf
    have gn := g n (by simp)
    cases fuel with
    | zero => omega
    | succ fuel =>
    have hs : startsWithL '/' (relRef (n :: ns)).toList = false := by
      rw [relRef_toList]; exact startsWith_good gn _
    -- first part and rest
    have hparts : partL '/' (relRef (n :: ns)).toList = (n.toList, (relRef ns).toList) ∧
        ((relRef ns).toList = [] ↔ ns = []) := by
      cases ns with
      | nil =>
        refine ⟨?_, by simp [relRef]⟩
        rw [relRef_toList]; simp [absRef, relRef]; rw [partL_no_sep _ _ gn.2]
      | cons m ms =>
        refine ⟨?_, ?_⟩
        · rw [relRef_cons_toList, partL_append _ _ _ gn.2]
        · constructor
          · intro e; exact absurd e (relRef_toList_ne (g m (by simp)) ms)
          · simp
    obtain ⟨hp, hpe⟩ := hparts
    have hlen : ns ≠ [] → (relRef ns).toList.length + 1 ≤ fuel := by
      intro hne
      have h1 : (partL '/' (relRef (n :: ns)).toList).2 ≠ [] := by
        rw [hp]; intro e; exact hne (hpe.1 e)
      have := partL_length_lt '/' _ h1
      rw [hp] at this
      simp only at this
      omega
    have hgn : ∀ m ∈ ns, GoodName m := fun m hm => g m (by simp [hm])
    cases hg : dictGet (h.obj c).map n with
    | some y =>
      obtain ⟨hy1, hy2⟩ := (map_holds I c n y).1 hg
      rcases holds_item I hy1 with hyp | ⟨k, hyk⟩
      · have hyin := holds_pkg I hy1 hyp
        by_cases hns : ns = []
        · subst hns
          right
          refine ⟨?_, y, ?_⟩
          · intro pre post e hsplit hcon
            cases hcon with
            | here h1 h2 =>
              simp at hsplit
              rw [← hsplit.1] at h2
              have := holds_unique I h1 hy1 (by rw [h2, hy2])
              subst this; exact hyp
            | down h1 h2 h3 =>
              simp at hsplit
              exact absurd hsplit.2.1 (contains_ne_nil h3)
          · have hr0 : (relRef ([] : List String)).toList = [] := by simp [relRef]
            rw [hr0] at hp
            simp [packageMake, hs, hp, hg, hyp]
        · have hr : packageMake (fuel + 1) h c (relRef (n :: ns)).toList =
              packageMake fuel h y (relRef ns).toList := by
            have : (relRef ns).toList ≠ [] := fun e => hns (hpe.1 e)
            simp only [packageMake, hs, hp]
            simp [hg, hyp]
            intro e; exact absurd (by simpa using e) this
          rw [hr]
          rcases ih I (map_lt I hg) hyp fuel hns hgn (hlen hns) with
            ⟨⟨pre, post, e, k, h1, h2, h3⟩, h4⟩ | ⟨h1, x, h2⟩
          · left
            exact ⟨⟨n :: pre, post, e, k, by rw [h1]; rfl, .down hyin hy2 h2, h3⟩, h4⟩
          · right
            refine ⟨?_, x, h2⟩
            intro pre post e hsplit hcon
            cases hcon with
            | here g1 g2 =>
              simp at hsplit
              rw [← hsplit.1] at g2
              have := holds_unique I g1 hy1 (by rw [g2, hy2])
              subst this; exact hyp
            | down g1 g2 g3 =>
              rename_i p n' ns'
              simp at hsplit
              rw [← hsplit.1] at g2
              have := holds_unique I (Or.inl g1) hy1 (by rw [g2, hy2])
              subst this
              exact h1 ns' post e hsplit.2 g3
      · left
        refine ⟨⟨[n], ns, y, k, rfl, .here hy1 hy2, hyk⟩, ?_⟩
        simp [packageMake, hs, hp, hg, hyk]
    | none =>
      right
      have hno : ∀ pre post e, n :: ns = pre ++ post → Contains h c pre e → (h.obj e).cls = .package := by
        intro pre post e hsplit hcon
        exfalso
        cases hcon with
        | here g1 g2 =>
          simp at hsplit
          rw [← hsplit.1] at g2
          rw [(map_holds I c n e).2 ⟨g1, g2⟩] at hg; simp at hg
        | down g1 g2 g3 =>
          rename_i p n' ns'
          simp at hsplit
          rw [← hsplit.1] at g2
          rw [(map_holds I c n p).2 ⟨Or.inl g1, g2⟩] at hg; simp at hg
      refine ⟨hno, ?_⟩
      rcases packageCreate_cases h c n hc with ⟨h1, _⟩ | ⟨hd, C, h2⟩
      · simp [dictHas, hg] at h1
      have hI := inv_created I hc (by simp [hcc, Cls.isContainer]) hd C
      have hnx := created_next C
      have hnc := created_new_cls C
      have hempty := new_pkg_empty hc C
      have hcr : packageCreate h c n = ((packageCreate h c n).1, .ok (.obj h.next)) :=
        Prod.ext rfl h2
      generalize (packageCreate h c n).1 = h1 at *
      by_cases hns : ns = []
      · subst hns
        refine ⟨h.next, ?_⟩
        have hr0 : (relRef ([] : List String)).toList = [] := by simp [relRef]
        rw [hr0] at hp
        simp [packageMake, hs, hp, hg, hcr]
      · have hr : packageMake (fuel + 1) h c (relRef (n :: ns)).toList =
            packageMake fuel h1 h.next (relRef ns).toList := by
          have : (relRef ns).toList ≠ [] := fun e => hns (hpe.1 e)
          simp only [packageMake, hs, hp]
          simp [hg, hcr]
          intro e; exact absurd (by simpa using e) this
        rw [hr]
        rcases ih hI (c := h.next) (by omega) hnc fuel hns hgn (hlen hns) with
          ⟨⟨pre, post, e, k, g1, g2, g3⟩, g4⟩ | ⟨_, x, g2⟩
        · exfalso
          cases g2 with
          | here a _ => rw [holds_iff, hempty] at a; simp at a
          | down a _ _ =>
            have : Holds h1 h.next _ := Or.inl a
            rw [holds_iff, hempty] at this; simp at this
        · exact ⟨x, g2⟩

end Verif.Pkg
