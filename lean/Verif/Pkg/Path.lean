import Verif.Pkg.History
import Verif.Pkg.Spec
/-
Lemmas relating `find` and `ref` to paths.
-/
set_option linter.unusedSimpArgs false
set_option linter.unusedVariables false

namespace Verif.Pkg
open Verif.Py Spec

theorem holds_iff (h : Heap) (c x : Oid) : Holds h c x ↔ x ∈ contents h c := by
  simp [Holds, contents]

theorem isContainer_iff (h : Heap) (c : Oid) :
    IsContainer h c ↔ (h.obj c).cls.isContainer = true := by
  cases hc : (h.obj c).cls <;> simp [IsContainer, Cls.isContainer, hc]

theorem isItem_iff (h : Heap) (c : Oid) : IsItem h c ↔ (h.obj c).cls.isItem = true := by
  cases hc : (h.obj c).cls <;> simp [IsItem, Cls.isItem, hc]

theorem holds_item {h : Heap} (I : Inv h) {c x : Oid} (hh : Holds h c x) : IsItem h x := by
  rcases hh with hh | hh
  · exact Or.inl (I.pkgs_cls c x hh).2
  · exact Or.inr (I.elems_cls c x hh).2

theorem holds_pkg {h : Heap} (I : Inv h) {c x : Oid} (hh : Holds h c x)
    (hx : (h.obj x).cls = .package) : x ∈ (h.obj c).packages := by
  rcases hh with hh | hh
  · exact hh
  · obtain ⟨_, k, hk⟩ := I.elems_cls c x hh; rw [hk] at hx; simp at hx

theorem holds_container {h : Heap} (I : Inv h) {c x : Oid} (hh : Holds h c x) :
    IsContainer h c := by
  rw [isContainer_iff]
  cases hb : (h.obj c).cls.isContainer with
  | true => rfl
  | false => rw [holds_iff, (I.non_container c hb).1] at hh; simp at hh

theorem holds_unique {h : Heap} (I : Inv h) {c x y : Oid} (hx : Holds h c x) (hy : Holds h c y)
    (hn : (h.obj x).name = (h.obj y).name) : x = y := by
  rw [holds_iff] at hx hy
  have h1 := (I.map_iff c _ x).2 ⟨hx, rfl⟩
  have h2 := (I.map_iff c _ y).2 ⟨hy, rfl⟩
  rw [hn, h2] at h1; injection h1 with h1; exact h1.symm

theorem contains_container {h : Heap} (I : Inv h) {c x : Oid} {ns : List String}
    (hc : Contains h c ns x) : IsContainer h c := by
  cases hc with
  | here hh _ => exact holds_container I hh
  | down hp _ _ => exact holds_container I (Or.inl hp)

theorem contains_item {h : Heap} (I : Inv h) {c x : Oid} {ns : List String}
    (hc : Contains h c ns x) : IsItem h x := by
  induction hc with
  | here hh _ => exact holds_item I hh
  | down _ _ _ ih => exact ih

theorem contains_ne_nil {h : Heap} {c x : Oid} {ns : List String} (hc : Contains h c ns x) :
    ns ≠ [] := by cases hc <;> simp

theorem contains_snoc {h : Heap} (I : Inv h) {c p x : Oid} {ns : List String}
    (hc : Contains h c ns p) (hp : (h.obj p).cls = .package) (hx : Holds h p x) :
    Contains h c (ns ++ [(h.obj x).name]) x := by
  induction hc with
  | here hh hn => exact .down (holds_pkg I hh hp) hn (.here hx rfl)
  | down h1 h2 _ ih => exact .down h1 h2 (ih hp hx)

/-- Lookup in the name map is containment. -/
theorem map_holds {h : Heap} (I : Inv h) (c : Oid) (n : String) (x : Oid) :
    dictGet (h.obj c).map n = some x ↔ Holds h c x ∧ (h.obj x).name = n := by
  rw [I.map_iff, holds_iff]

/-! ### strings -/

theorem toList_inj {s t : String} (e : s.toList = t.toList) : s = t := by
  have := congrArg String.ofList e; simpa using this

theorem goodName_toList_ne {n : String} (g : GoodName n) : n.toList ≠ [] := by
  intro e; exact g.1 (toList_inj (by simpa using e))

theorem strjoin_cons (a : String) (l : List String) : String.join (a :: l) = a ++ String.join l := by
  simp

theorem absRef_nil : absRef [] = "" := rfl

theorem absRef_cons (n : String) (ns : List String) : absRef (n :: ns) = "/" ++ n ++ absRef ns := by
  simp [absRef]

theorem absRef_append (ns ms : List String) : absRef (ns ++ ms) = absRef ns ++ absRef ms := by
  induction ns with
  | nil => simp [absRef]
  | cons n ns ih => rw [List.cons_append, absRef_cons, absRef_cons, ih]; simp [String.append_assoc]

theorem absRef_eq_slash_rel (n : String) (ns : List String) :
    absRef (n :: ns) = "/" ++ relRef (n :: ns) := by
  rw [absRef_cons, relRef, String.append_assoc]

theorem relRef_cons_toList (n m : String) (ns : List String) :
    (relRef (n :: m :: ns)).toList = n.toList ++ '/' :: (relRef (m :: ns)).toList := by
  rw [relRef, absRef_eq_slash_rel]; simp

theorem relRef_toList_ne {n : String} (g : GoodName n) (ns : List String) :
    (relRef (n :: ns)).toList ≠ [] := by
  rw [relRef]; simp; intro e; exact absurd e g.1

/-- `relRef` is what `'/'.join` computes. -/
theorem join_eq_relRef (ns : List String) : join '/' ns = relRef ns := by
  apply toList_inj
  unfold join
  rw [String.toList_ofList]
  induction ns with
  | nil => rfl
  | cons n ns ih =>
    cases ns with
    | nil => simp [joinL, relRef, absRef]
    | cons m ms =>
      rw [relRef_cons_toList, ← ih]
      simp [joinL]

theorem relRef_denotes : ∀ (ns : List String), ns ≠ [] → (∀ n ∈ ns, GoodName n) →
    Denotes (relRef ns).toList ns
  | [], h, _ => absurd rfl h
  | [n], _, g => by
    have : relRef [n] = n := by simp [relRef, absRef]
    rw [this]; exact .last (.plain (g n (by simp)))
  | n :: m :: ns, _, g => by
    rw [relRef_cons_toList]
    exact .more (.plain (g n (by simp)))
      (relRef_denotes (m :: ns) (by simp) (fun x hx => g x (by simp at hx ⊢; exact Or.inr hx)))
      (relRef_toList_ne (g m (by simp)) ns)

theorem absRef_denotes (ns : List String) (hne : ns ≠ []) (g : ∀ n ∈ ns, GoodName n) :
    Denotes (absRef ns).toList ns := by
  cases ns with
  | nil => exact absurd rfl hne
  | cons n ns =>
    cases ns with
    | nil =>
      have : (absRef [n]).toList = '/' :: n.toList := by simp [absRef]
      rw [this]; exact .last (.slash (g n (by simp)).2)
    | cons m ms =>
      have : (absRef (n :: m :: ms)).toList = ('/' :: n.toList) ++ '/' :: (relRef (m :: ms)).toList := by
        rw [absRef_cons, absRef_eq_slash_rel]; simp
      rw [this]
      exact .more (.slash (g n (by simp)).2)
        (relRef_denotes (m :: ms) (by simp) (fun x hx => g x (by simp at hx ⊢; exact Or.inr hx)))
        (relRef_toList_ne (g m (by simp)) ms)

theorem segment_strip {s : List Char} {n : String} (sg : Segment s n) (t : List Char)
    (ht : t = [] ∨ ∃ r, t = '/' :: r) : stripLead '/' (s ++ t) = n.toList ++ t := by
  cases sg with
  | plain g =>
    obtain ⟨g1, g2⟩ := g
    cases hl : n.toList with
    | nil => exact absurd hl (goodName_toList_ne ⟨g1, g2⟩)
    | cons c cs =>
      rw [hl] at g2
      have : c ≠ '/' := by intro e; subst e; simp at g2
      simp [stripLead, this]
  | slash g => simp [stripLead]

theorem segment_noslash {s : List Char} {n : String} (sg : Segment s n) : '/' ∉ n.toList := by
  cases sg with
  | plain g => exact g.2
  | slash g => exact g

/-- `find` steps through the segments a string denotes. -/
theorem find_denotes_cases {h : Heap} {c : Oid} (hc : IsContainer h c)
    {s : List Char} {segs : List String} (d : Denotes s segs) :
    (∃ n, segs = [n] ∧ findAux (s.length + 1) h c s = .ok (dictGet (h.obj c).map n)) ∨
    (∃ n ns rest, segs = n :: ns ∧ Denotes rest ns ∧ rest ≠ [] ∧ rest.length < s.length ∧
      (∃ pre, s = pre ++ '/' :: rest ∧ Segment pre n) ∧
      findAux (s.length + 1) h c s =
        match dictGet (h.obj c).map n with
        | none => .ok none
        | some x => findAux (rest.length + 1) h x rest) := by
  rw [isContainer_iff] at hc
  cases d with
  | empty =>
    left
    refine ⟨"", rfl, ?_⟩
    rw [find_unfold h c _ hc]
    simp only [stripLead, partL]
    cases hg : dictGet (h.obj c).map (String.ofList []) with
    | none => simp at hg; simp [hg]
    | some x => simp at hg; simp [hg]
  | last sg =>
    rename_i n
    left
    refine ⟨n, rfl, ?_⟩
    rw [find_unfold h c _ hc]
    have h1 := segment_strip sg [] (Or.inl rfl)
    simp at h1
    rw [h1, partL_no_sep _ _ (segment_noslash sg)]
    simp only [String.ofList_toList]
    cases dictGet (h.obj c).map n <;> simp
  | trail sg =>
    rename_i s' n
    left
    refine ⟨n, rfl, ?_⟩
    rw [find_unfold h c _ hc]
    have h1 := segment_strip sg ['/'] (Or.inr ⟨[], rfl⟩)
    rw [h1, partL_append _ _ _ (segment_noslash sg)]
    simp only [String.ofList_toList]
    cases dictGet (h.obj c).map n <;> simp
  | more sg d' hne =>
    rename_i s' rest n ns
    right
    refine ⟨n, ns, rest, rfl, d', hne, by simp; omega, ⟨s', rfl, sg⟩, ?_⟩
    rw [find_unfold h c _ hc]
    have h1 := segment_strip sg ('/' :: rest) (Or.inr ⟨rest, rfl⟩)
    rw [h1, partL_append _ _ _ (segment_noslash sg)]
    simp only [String.ofList_toList]
    cases hg : dictGet (h.obj c).map n <;> simp [hne]

/-- Every string denotes some list of names. -/
theorem denotes_total : ∀ (k : Nat) (s : List Char), s.length ≤ k → ∃ segs, Denotes s segs := by
  intro k
  induction k with
  | zero =>
    intro s hs
    have : s = [] := List.length_eq_zero_iff.mp (by omega)
    subst this; exact ⟨_, .empty⟩
  | succ k ih =>
    intro s hs
    cases s with
    | nil => exact ⟨_, .empty⟩
    | cons c cs =>
      -- name after the optional slash
      have main : ∀ (lead body : List Char), c :: cs = lead ++ body →
          (lead = [] ∧ (∃ b bs, body = b :: bs ∧ b ≠ '/') ∨ lead = ['/']) →
          ∃ segs, Denotes (c :: cs) segs := by
        intro lead body hb hl
        have hseg : Segment (lead ++ (partL '/' body).1) (String.ofList (partL '/' body).1) := by
          rcases hl with ⟨rfl, b, bs, hb1, hb2⟩ | rfl
          · have : Segment (String.ofList (partL '/' body).1).toList
                (String.ofList (partL '/' body).1) := by
              refine .plain ⟨?_, ?_⟩
              · subst hb1; simp [partL, hb2]
              · simpa using not_mem_partL_fst '/' body
            simpa using this
          · have : Segment ('/' :: (String.ofList (partL '/' body).1).toList)
                (String.ofList (partL '/' body).1) :=
              .slash (by simpa using not_mem_partL_fst '/' body)
            simpa using this
        rcases partL_spec '/' body with ⟨h1, _, _⟩ | h1
        · rw [hb]; rw [← h1] at hseg; exact ⟨_, .last hseg⟩
        · by_cases hr : (partL '/' body).2 = []
          · rw [hr] at h1
            have : c :: cs = (lead ++ (partL '/' body).1) ++ ['/'] := by
              rw [hb, List.append_assoc, ← h1]
            rw [this]; exact ⟨_, .trail hseg⟩
          · have heq : c :: cs = (lead ++ (partL '/' body).1) ++ '/' :: (partL '/' body).2 := by
              rw [hb, List.append_assoc, ← h1]
            have hlen : (partL '/' body).2.length ≤ k := by
              have := congrArg List.length heq
              simp only [List.length_cons, List.length_append] at this hs
              omega
            obtain ⟨segs, hd⟩ := ih _ hlen
            rw [heq]; exact ⟨_, .more hseg hd hr⟩
      by_cases hcs : c = '/'
      · exact main ['/'] cs (by simp [hcs]) (Or.inr rfl)
      · exact main [] (c :: cs) rfl (Or.inl ⟨rfl, c, cs, rfl, hcs⟩)

/-- `find` returns the contained item. -/
theorem find_of_contains {h : Heap} (I : Inv h) : ∀ {segs : List String} {s : List Char} {c x : Oid},
    Denotes s segs → Contains h c segs x → findAux (s.length + 1) h c s = .ok (some x) := by
  intro segs
  induction segs with
  | nil => intro s c x _ hc; exact absurd rfl (contains_ne_nil hc)
  | cons n ns ih =>
    intro s c x d hc
    rcases find_denotes_cases (contains_container I hc) d with ⟨n', e, hf⟩ |
      ⟨n', ns', rest, e, d', hne, _, _, hf⟩
    · injection e with e1 e2
      subst e1; subst e2
      rw [hf]
      cases hc with
      | here hh hn => rw [(map_holds I c n x).2 ⟨hh, hn⟩]
      | down _ _ h3 => exact absurd rfl (contains_ne_nil h3)
    · injection e with e1 e2
      subst e1; subst e2
      rw [hf]
      cases hc with
      | here hh hn =>
        exfalso; cases d'
      | down h1 h2 h3 =>
        rename_i p
        rw [(map_holds I c n p).2 ⟨Or.inl h1, h2⟩]
        exact ih d' h3

/-- What `find` can return on a string denoting `segs`. -/
theorem find_result {h : Heap} (I : Inv h) : ∀ {segs : List String} {s : List Char} {c : Oid},
    Denotes s segs → IsContainer h c →
    (∃ x, Contains h c segs x ∧ findAux (s.length + 1) h c s = .ok (some x)) ∨
    ((¬ ∃ x, Contains h c segs x) ∧ findAux (s.length + 1) h c s = .ok none) ∨
    (∃ pre post e k rest, segs = pre ++ post ∧ post ≠ [] ∧ Contains h c pre e ∧
      (h.obj e).cls = .element k ∧ rest ≠ [] ∧ Denotes rest post ∧
      (∃ t, s = t ++ rest) ∧
      findAux (s.length + 1) h c s = elemFind h e k rest) := by
  intro segs
  induction segs with
  | nil => intro s c d; cases d
  | cons n ns ih =>
    intro s c d hc
    rcases find_denotes_cases hc d with ⟨n', e, hf⟩ |
      ⟨n', ns', rest, e, d', hne, hlen, ⟨pre, hpre, _⟩, hf⟩
    · injection e with e1 e2
      subst e1; subst e2
      cases hg : dictGet (h.obj c).map n with
      | some x =>
        left
        obtain ⟨h1, h2⟩ := (map_holds I c n x).1 hg
        exact ⟨x, .here h1 h2, by rw [hf, hg]⟩
      | none =>
        right; left
        refine ⟨?_, by rw [hf, hg]⟩
        rintro ⟨x, hx⟩
        cases hx with
        | here h1 h2 => rw [(map_holds I c n x).2 ⟨h1, h2⟩] at hg; simp at hg
        | down _ _ h3 => exact absurd rfl (contains_ne_nil h3)
    · injection e with e1 e2
      subst e1; subst e2
      have hns : ns ≠ [] := by intro e; subst e; cases d'
      cases hg : dictGet (h.obj c).map n with
      | none =>
        right; left
        refine ⟨?_, by rw [hf, hg]⟩
        rintro ⟨x, hx⟩
        cases hx with
        | here h1 h2 => exact hns rfl
        | down h1 h2 h3 =>
          rename_i p
          rw [(map_holds I c n p).2 ⟨Or.inl h1, h2⟩] at hg; simp at hg
      | some y =>
        rw [hg] at hf
        obtain ⟨hy1, hy2⟩ := (map_holds I c n y).1 hg
        rcases holds_item I hy1 with hyp | ⟨k, hyk⟩
        · have hyin := holds_pkg I hy1 hyp
          rcases ih d' (Or.inl hyp) with ⟨x, h1, h2⟩ | ⟨h1, h2⟩ |
            ⟨pre', post, e', k, rest', h1, h2, h3, h4, h5, h6, ⟨t, ht⟩, h7⟩
          · left; exact ⟨x, .down hyin hy2 h1, by rw [hf]; exact h2⟩
          · right; left
            refine ⟨?_, by rw [hf]; exact h2⟩
            rintro ⟨x, hx⟩
            cases hx with
            | here _ _ => exact hns rfl
            | down g1 g2 g3 =>
              rename_i p
              have : p = y := holds_unique I (Or.inl g1) hy1 (by rw [g2, hy2])
              subst this; exact h1 ⟨x, g3⟩
          · right; right
            refine ⟨n :: pre', post, e', k, rest', by rw [h1]; rfl, h2, .down hyin hy2 h3, h4, h5, h6,
              ⟨pre ++ '/' :: t, by rw [hpre, ht]; simp⟩, by rw [hf]; exact h7⟩
        · right; right
          refine ⟨[n], ns, y, k, rest, rfl, hns, .here hy1 hy2, hyk, hne, d',
            ⟨pre ++ ['/'], by rw [hpre]; simp⟩, ?_⟩
          rw [hf]
          simp [findAux, hyk]

/-! ### ref -/

theorem parentPath_ne_nil {h : Heap} {c x : Oid} {ns : List String} (p : ParentPath h c ns x) :
    ns ≠ [] := by cases p <;> simp

theorem parentPath_parent {h : Heap} {c x : Oid} {ns : List String} (p : ParentPath h c ns x) :
    ∃ q, (h.obj x).parent = some q := by
  cases p with
  | top h1 _ => exact ⟨_, h1⟩
  | under _ h2 => exact ⟨_, h2⟩

theorem parentPath_not_coll {h : Heap} (I : Inv h) {c x : Oid} {ns : List String}
    (p : ParentPath h c ns x) : (h.obj x).cls ≠ .collection := by
  intro e
  obtain ⟨q, hq⟩ := parentPath_parent p
  rw [I.coll_parent x e] at hq; simp at hq

theorem updateRefParts_path {h : Heap} (I : Inv h) {c x : Oid} {ns : List String}
    (p : ParentPath h c ns x) :
    ∃ fuel, updateRefParts fuel h x = some (ns.reverse.map some ++ [some ""]) := by
  induction p with
  | @top x h1 h2 =>
    have hx := parentPath_not_coll I (.top h1 h2)
    refine ⟨2, ?_⟩
    simp [updateRefParts, h1, h2]
    try (split <;> simp_all)
  | @under ns p x hp h2 ih =>
    obtain ⟨f, hf⟩ := ih
    have hx := parentPath_not_coll I (.under hp h2)
    refine ⟨f + 1, ?_⟩
    simp only [updateRefParts, h2]
    cases hcls : (h.obj x).cls <;> simp_all

theorem updateRefParts_inv {h : Heap} : ∀ (fuel : Nat) (x : Oid) (ps : List (Option String)),
    updateRefParts fuel h x = some ps →
    ((h.obj x).cls = .collection ∧ ps = [some ""]) ∨
    (∃ c ns, ParentPath h c ns x ∧ ps = ns.reverse.map some ++ [some ""]) ∨
    (Detached h x ∧ ps.getLast? = some none) := by
  intro fuel
  induction fuel with
  | zero => intro x ps he; simp [updateRefParts] at he
  | succ n ih =>
    intro x ps he
    have gen : (h.obj x).cls ≠ .collection →
        (match (h.obj x).parent with
        | none => some [some (h.obj x).name, none]
        | some p => (updateRefParts n h p).map (fun ps => some (h.obj x).name :: ps)) = some ps →
        (∃ c ns, ParentPath h c ns x ∧ ps = ns.reverse.map some ++ [some ""]) ∨
        (Detached h x ∧ ps.getLast? = some none) := by
      intro hx he
      cases hp : (h.obj x).parent with
      | none =>
        rw [hp] at he
        simp at he
        right; exact ⟨.here hx hp, by rw [← he]; rfl⟩
      | some p =>
        rw [hp] at he
        simp only [Option.map_eq_some_iff] at he
        obtain ⟨qs, hq, rfl⟩ := he
        rcases ih p qs hq with ⟨h1, h2⟩ | ⟨c, ns, h1, h2⟩ | ⟨h1, h2⟩
        · left; exact ⟨p, [_], .top hp h1, by rw [h2]; simp⟩
        · left; exact ⟨c, _, .under h1 hp, by rw [h2]; simp⟩
        · right; refine ⟨.up hp h1, ?_⟩
          cases qs with
          | nil => simp at h2
          | cons a as => rw [List.getLast?_cons_cons]; exact h2
    cases hx : (h.obj x).cls with
    | collection => left; simp [updateRefParts, hx] at he; exact ⟨rfl, he.symm⟩
    | package => right; simp only [updateRefParts, hx] at he; exact gen (by simp [hx]) he
    | element k => right; simp only [updateRefParts, hx] at he; exact gen (by simp [hx]) he
    | member k => right; simp only [updateRefParts, hx] at he; exact gen (by simp [hx]) he

theorem updateRefParts_detached {h : Heap} (I : Inv h) {x : Oid} (d : Detached h x) :
    ∃ fuel ps, updateRefParts fuel h x = some ps ∧ ps.getLast? = some none := by
  induction d with
  | @here x h1 h2 =>
    refine ⟨1, [some (h.obj x).name, none], ?_, rfl⟩
    simp only [updateRefParts, h2]
    try (split <;> simp_all)
  | @up x p h1 _ ih =>
    obtain ⟨f, ps, h2, h3⟩ := ih
    have hx : (h.obj x).cls ≠ .collection := by
      intro e; rw [I.coll_parent x e] at h1; simp at h1
    refine ⟨f + 1, some (h.obj x).name :: ps, ?_, ?_⟩
    · simp only [updateRefParts, h1]
      cases hcls : (h.obj x).cls <;> simp_all
    · cases ps with
      | nil => simp at h3
      | cons a as => rw [List.getLast?_cons_cons]; exact h3

theorem updateRefParts_mono {h : Heap} : ∀ (f g : Nat) (x : Oid) ps, f ≤ g →
    updateRefParts f h x = some ps → updateRefParts g h x = some ps := by
  intro f
  induction f with
  | zero => intro g x ps _ he; simp [updateRefParts] at he
  | succ f ih =>
    intro g x ps hle he
    cases g with
    | zero => omega
    | succ g =>
      have gen : (match (h.obj x).parent with
          | none => some [some (h.obj x).name, none]
          | some p => (updateRefParts f h p).map (fun ps => some (h.obj x).name :: ps)) = some ps →
          (match (h.obj x).parent with
          | none => some [some (h.obj x).name, none]
          | some p => (updateRefParts g h p).map (fun ps => some (h.obj x).name :: ps)) = some ps := by
        intro he
        cases hp : (h.obj x).parent with
        | none => rw [hp] at he; exact he
        | some p =>
          rw [hp] at he
          simp only [Option.map_eq_some_iff] at he ⊢
          obtain ⟨qs, hq, hqs⟩ := he
          exact ⟨qs, ih g p qs (by omega) hq, hqs⟩
      cases hx : (h.obj x).cls with
      | collection => simp [updateRefParts, hx] at he ⊢; exact he
      | package => simp only [updateRefParts, hx] at he ⊢; exact gen he
      | element k => simp only [updateRefParts, hx] at he ⊢; exact gen he
      | member k => simp only [updateRefParts, hx] at he ⊢; exact gen he

theorem joined_parts (ns : List String) (nm : String) :
    join '/' ((some nm :: (ns.reverse.map some ++ [some ""])).reverse.map (fun o => o.getD "")) =
      absRef (ns ++ [nm]) := by
  have : ((some nm :: (ns.reverse.map some ++ [some ""])).reverse.map (fun o => o.getD "")) =
      "" :: (ns ++ [nm]) := by
    simp [List.map_map]
    exact List.map_id' ns
  rw [this, join_eq_relRef, relRef]
  simp

theorem refReturns_of_path {h : Heap} (I : Inv h) {c x : Oid} {ns : List String}
    (p : ParentPath h c ns x) : RefReturns h x (some (absRef ns)) := by
  cases p with
  | top h1 h2 =>
    refine ⟨1, ?_⟩
    simp only [calcRef, h1, updateRefParts, h2]
    have := joined_parts [] (h.obj x).name
    simp at this
    simp [this]
  | under hp h2 =>
    rename_i ns p
    obtain ⟨f, hf⟩ := updateRefParts_path I hp
    refine ⟨f, ?_⟩
    have hl : (some (h.obj x).name :: (ns.reverse.map some ++ [some ""])).getLast? = some (some "") := by
      rw [← List.cons_append]; exact List.getLast?_concat
    have hj := joined_parts ns (h.obj x).name
    simp only [calcRef, h2, hf]
    rw [hl]
    simp only
    rw [hj]

theorem refReturns_cases {h : Heap} {x : Oid} {r : Option String} (I : Inv h)
    (hx : (h.obj x).cls ≠ .collection) (hr : RefReturns h x r) :
    (∃ c ns, ParentPath h c ns x ∧ r = some (absRef ns)) ∨ (Detached h x ∧ r = none) := by
  obtain ⟨f, hf⟩ := hr
  unfold calcRef at hf
  cases hp : (h.obj x).parent with
  | none => rw [hp] at hf; simp at hf; right; exact ⟨.here hx hp, hf.symm⟩
  | some p =>
    rw [hp] at hf
    simp only at hf
    cases hu : updateRefParts f h p with
    | none => rw [hu] at hf; simp at hf
    | some ps =>
      rw [hu] at hf
      simp only at hf
      rcases updateRefParts_inv f p ps hu with ⟨h1, h2⟩ | ⟨c, ns, h1, h2⟩ | ⟨h1, h2⟩
      · left
        refine ⟨p, _, .top hp h1, ?_⟩
        subst h2
        have hj := joined_parts [] (h.obj x).name
        simp at hj
        simp [hj] at hf
        rw [← hf]
      · left
        refine ⟨c, _, .under h1 hp, ?_⟩
        subst h2
        have hl : (some (h.obj x).name :: (ns.reverse.map some ++ [some ""])).getLast?
            = some (some "") := by
          rw [← List.cons_append]; exact List.getLast?_concat
        rw [hl] at hf
        simp only at hf
        rw [joined_parts] at hf
        injection hf with hf; exact hf.symm
      · right
        refine ⟨.up hp h1, ?_⟩
        have : (some (h.obj x).name :: ps).getLast? = some none := by
          cases ps with
          | nil => simp at h2
          | cons a as => rw [List.getLast?_cons_cons]; exact h2
        rw [this] at hf
        injection hf with hf; exact hf.symm

theorem refReturns_of_detached {h : Heap} (I : Inv h) {x : Oid} (d : Detached h x) :
    RefReturns h x none := by
  cases d with
  | here h1 h2 => exact ⟨0, by simp [calcRef, h2]⟩
  | up h1 d' =>
    obtain ⟨f, ps, h2, h3⟩ := updateRefParts_detached I d'
    refine ⟨f, ?_⟩
    have : (some (h.obj x).name :: ps).getLast? = some none := by
      cases ps with
      | nil => simp at h3
      | cons a as => rw [List.getLast?_cons_cons]; exact h3
    simp [calcRef, h1, h2, this]

theorem refReturns_det {h : Heap} {x : Oid} {r r' : Option String} (a : RefReturns h x r)
    (b : RefReturns h x r') : r = r' := by
  obtain ⟨f, hf⟩ := a
  obtain ⟨g, hg⟩ := b
  unfold calcRef at hf hg
  cases hp : (h.obj x).parent with
  | none => rw [hp] at hf hg; simp at hf hg; rw [← hf, ← hg]
  | some p =>
    rw [hp] at hf hg
    simp only at hf hg
    cases hu : updateRefParts f h p with
    | none => rw [hu] at hf; simp at hf
    | some ps =>
      cases hv : updateRefParts g h p with
      | none => rw [hv] at hg; simp at hg
      | some qs =>
        have h1 := updateRefParts_mono f (f + g) p ps (by omega) hu
        have h2 := updateRefParts_mono g (f + g) p qs (by omega) hv
        rw [h1] at h2; injection h2 with h2; subst h2
        rw [hu] at hf; rw [hv] at hg
        simp only at hf hg
        rw [hf] at hg
        injection hg

/-- An item with a parent path is contained along that path. -/
theorem contains_of_path {h : Heap} (I : Inv h) {c x : Oid} {ns : List String}
    (p : ParentPath h c ns x) (hx : IsItem h x) : Contains h c ns x := by
  induction p with
  | @top x h1 h2 =>
    have := (I.item_parent x c h1 ((isItem_iff h x).1 hx)).2.2
    exact .here ((holds_iff h c x).2 this) rfl
  | @under ns p x hp h2 ih =>
    obtain ⟨_, hc, hin⟩ := I.item_parent x p h2 ((isItem_iff h x).1 hx)
    have hpk : (h.obj p).cls = .package := by
      have := parentPath_not_coll I hp
      cases hcls : (h.obj p).cls <;> simp_all [Cls.isContainer]
    exact contains_snoc I (ih (Or.inl hpk)) hpk ((holds_iff h p x).2 hin)

end Verif.Pkg
