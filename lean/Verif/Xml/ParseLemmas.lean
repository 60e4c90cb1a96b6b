import Verif.Xml.Emit
/- Parsing what was rendered. -/
namespace Verif.Xml
open Verif.Py Verif.Xml.Spec

/-! ### Names, text runs and attribute values -/

theorem takeWhile_append_stop {p : Char → Bool} (a : List Char) (h : ∀ c ∈ a, p c = true)
    (rest : List Char) (hr : ∀ c r, rest = c :: r → p c = false) :
    (a ++ rest).takeWhile p = a ∧ (a ++ rest).dropWhile p = rest := by
  induction a with
  | nil =>
    cases rest with
    | nil => simp
    | cons c r => simp [hr c r rfl]
  | cons x xs ih =>
    have hx := h x (by simp)
    have := ih (fun c hc => h c (by simp [hc]))
    simp [hx, this]

theorem name_append (s : String) (hs : Name s) (rest : List Char)
    (hr : ∀ c r, rest = c :: r → isNameChar c = false) :
    name (s.toList ++ rest) = some (s, rest) := by
  obtain ⟨h1, h2⟩ := takeWhile_append_stop s.toList hs.2 rest hr
  unfold name
  rw [h1, h2]
  have hne : s.toList ≠ [] := by
    intro h
    exact hs.1 (by rw [← String.toList_eq_nil_iff]; exact h)
  split
  · rename_i h; exact absurd h hne
  · simp

theorem noCdEnd_tail {c : Char} {s : List Char} (h : ¬ [']', ']', '>'] <:+: c :: s) :
    ¬ [']', ']', '>'] <:+: s := fun h' => h (List.infix_cons h')

theorem textRun_append (s : List Char)
    (hs : ∀ c ∈ s, isXmlChar c = true ∧ c ≠ '<' ∧ c ≠ '&' ∧ c ≠ '\r')
    (hc : ¬ [']', ']', '>'] <:+: s) (rest : List Char) (n : Nat) (hn : s.length + 1 ≤ n) :
    textRun n (s ++ '<' :: rest) = some (s, '<' :: rest) := by
  induction s generalizing n with
  | nil =>
    obtain ⟨n, rfl⟩ : ∃ m, n = m + 1 := ⟨n - 1, by omega⟩
    simp [textRun]
  | cons c s ih =>
    obtain ⟨n, rfl⟩ : ∃ m, n = m + 1 := ⟨n - 1, by simp at hn; omega⟩
    have ih' := ih (fun c hc => hs c (by simp [hc])) (noCdEnd_tail hc) n (by simp at hn; omega)
    obtain ⟨h1, h2, h3, h4⟩ := hs c (by simp)
    simp only [List.cons_append]
    rw [textRun, if_pos h1, ih']
    · rfl
    · exact h2
    · exact h3
    · rintro r rfl heq
      match s, heq with
      | [], heq => simp at heq
      | [a], heq => simp at heq
      | a :: b :: s', heq =>
        simp only [List.cons_append, List.cons.injEq] at heq
        obtain ⟨rfl, rfl, -⟩ := heq
        exact hc ⟨[], s', by simp⟩

theorem attrValue_append (v : List Char)
    (hv : ∀ c ∈ v, isXmlChar c = true ∧ c ≠ '<' ∧ c ≠ '&' ∧ c ≠ '"' ∧ c ≠ '\n' ∧ c ≠ '\t' ∧ c ≠ '\r')
    (rest : List Char) (n : Nat) (hn : v.length + 1 ≤ n) :
    attrValue '"' n (v ++ '"' :: rest) = some (v, rest) := by
  induction v generalizing n with
  | nil =>
    obtain ⟨n, rfl⟩ : ∃ m, n = m + 1 := ⟨n - 1, by omega⟩
    simp [attrValue]
  | cons c v ih =>
    obtain ⟨n, rfl⟩ : ∃ m, n = m + 1 := ⟨n - 1, by simp at hn; omega⟩
    have ih' := ih (fun c hc => hv c (by simp [hc])) n (by simp at hn; omega)
    obtain ⟨h1, h2, h3, h4, h5, h6, h7⟩ := hv c (by simp)
    simp only [List.cons_append]
    rw [attrValue]
    simp [h1, h2, h3, h4, h5, h6, h7, ih']

/-! ### Attribute lists -/

/-- A start tag's end. -/
def TagEnd (rest : List Char) : Prop := (∃ r, rest = '>' :: r) ∨ ∃ r, rest = '/' :: '>' :: r

theorem TagEnd.skip {rest : List Char} (h : TagEnd rest) : skipSpace rest = rest := by
  rcases h with ⟨r, rfl⟩ | ⟨r, rfl⟩ <;> simp [skipSpace, isSpace]

theorem nameChar_not_space (c : Char) (h : isNameChar c = true) : isSpace c = false := by
  cases hs : isSpace c with
  | false => rfl
  | true =>
    unfold isSpace at hs
    simp at hs
    rcases hs with ((rfl | rfl) | rfl) | rfl <;> revert h <;> decide

theorem nameChar_ne (c x : Char) (h : isNameChar c = true) (hx : isNameChar x = false) : c ≠ x := by
  rintro rfl
  rw [h] at hx
  cases hx

theorem attrList_one (a : String × String) (ha : Name a.1 ∧ SafeAttr a.2) (n : Nat)
    (rest : List Char) (as : Attrs) (r4 : List Char) (hn : a.2.toList.length + 1 ≤ n + 1)
    (hrest : attrList n rest = some (as, r4)) (hk : a.1 ∉ as.map Prod.fst) :
    attrList (n + 1) (' ' :: (attrStr a ++ rest)) = some (a :: as, r4) := by
  obtain ⟨k, v⟩ := a
  simp only at ha hn hk
  obtain ⟨c, cs, hc⟩ : ∃ c cs, k.toList = c :: cs := by
    cases h : k.toList with
    | nil => exact absurd (String.toList_eq_nil_iff.1 h) ha.1.1
    | cons c cs => exact ⟨c, cs, rfl⟩
  have hcn : isNameChar c = true := ha.1.2 c (by simp [hc])
  rw [attrList]
  have hskip : skipSpace (' ' :: (attrStr (k, v) ++ rest)) = attrStr (k, v) ++ rest := by
    unfold attrStr
    simp only [hc, List.cons_append, skipSpace]
    rw [List.dropWhile_cons_of_pos (by decide), List.dropWhile_cons_of_neg]
    simp [nameChar_not_space c hcn]
  rw [hskip]
  have hname : name (attrStr (k, v) ++ rest) = some (k, '=' :: '"' :: (v.toList ++ '"' :: rest)) := by
    unfold attrStr
    simp only [List.append_assoc, List.cons_append]
    have := name_append k ha.1 ('=' :: '"' :: (v.toList ++ '"' :: rest)) (by
      intro c r h
      simp only [List.cons.injEq] at h
      rw [← h.1]; decide)
    simpa using this
  have hne : attrStr (k, v) ++ rest ≠ ' ' :: (attrStr (k, v) ++ rest) := by
    intro h
    have := congrArg List.length h
    simp at this
  split
  · rename_i heq
    simp only [attrStr, hc, List.cons_append, List.cons.injEq] at heq
    exact absurd heq.1 (nameChar_ne c '>' hcn (by decide))
  · rename_i heq
    simp only [attrStr, hc, List.cons_append, List.cons.injEq] at heq
    exact absurd heq.1 (nameChar_ne c '/' hcn (by decide))
  · rw [if_neg hne, hname]
    simp only [skipSpace, List.dropWhile_cons, isSpace]
    simp only [Char.reduceBEq, Bool.or_self, Bool.false_eq_true, if_false]
    rw [List.dropWhile_cons_of_neg (by decide)]
    simp only [true_or, if_true]
    rw [attrValue_append v.toList ha.2 rest (n + 1) hn]
    simp only
    rw [hrest]
    simp only
    have : ¬ (List.map Prod.fst as).contains k = true := by
      simpa using hk
    rw [if_neg this]
    simp

theorem attrList_append (as : Attrs) (has : SafeAttrs as) (rest : List Char) (hr : TagEnd rest)
    (n : Nat) (hn : (attrsStr as).length + 1 ≤ n) :
    attrList n ((if as = [] then [] else ' ' :: attrsStr as) ++ rest) = some (as, rest) := by
  induction as generalizing n with
  | nil =>
    obtain ⟨n, rfl⟩ : ∃ m, n = m + 1 := ⟨n - 1, by omega⟩
    simp only [if_true, List.nil_append]
    rw [attrList, hr.skip]
    rcases hr with ⟨r, rfl⟩ | ⟨r, rfl⟩ <;> simp
  | cons a as ih =>
    obtain ⟨h1, h2⟩ := has
    simp only [List.map_cons, List.nodup_cons] at h2
    have ihs : SafeAttrs as := ⟨fun b hb => h1 b (by simp [hb]), h2.2⟩
    have hlen : (attrsStr (a :: as)).length ≥ a.2.toList.length + 1 + (attrsStr as).length +
        (if as = [] then 0 else 1) := by
      cases as with
      | nil => simp [attrsStr, attrStr]; omega
      | cons b bs => rw [attrsStr] <;> simp [attrStr]; omega
    obtain ⟨n, rfl⟩ : ∃ m, n = m + 1 := ⟨n - 1, by omega⟩
    rw [if_neg (by simp)]
    cases as with
    | nil =>
      have := attrList_one a (h1 a (by simp)) n rest [] rest (by omega)
        (by
          have := ih ihs n (by simp at hlen; simp only [attrsStr, List.length_nil]; omega)
          simpa using this) h2.1
      simpa [attrsStr] using this
    | cons b bs =>
      have hi := ih ihs n (by simp at hlen; omega)
      rw [if_neg (by simp)] at hi
      have := attrList_one a (h1 a (by simp)) n _ (b :: bs) rest (by simp at hlen; omega) hi h2.1
      rw [attrsStr]
      · simpa using this
      · simp

theorem SafeAttrs.nil : SafeAttrs [] := ⟨by simp, by simp⟩

end Verif.Xml
