import Verif.Codec.Pattern
import Verif.Codec.PatternSpec
/-
The patterns are matched as the regular expressions say.
-/
namespace Verif.Codec.Pattern
open Verif.Codec.Spec Rx

theorem chars_iff {ranges : List (Char × Char)} {s : List Char} :
    Lang (.chars ranges) s ↔ ∃ c, s = [c] ∧ ∃ r ∈ ranges, r.1 ≤ c ∧ c ≤ r.2 := by
  constructor
  · intro h
    cases h with
    | chars h h1 h2 => exact ⟨_, rfl, _, h, h1, h2⟩
  · rintro ⟨c, rfl, r, h, h1, h2⟩
    exact .chars h h1 h2

theorem word_iff {w s : List Char} : Lang (.word w) s ↔ s = w := by
  constructor
  · intro h; cases h; rfl
  · rintro rfl; exact .word _

theorem seq_iff {a b : Rx} {s : List Char} :
    Lang (.seq a b) s ↔ ∃ x y, s = x ++ y ∧ Lang a x ∧ Lang b y := by
  constructor
  · intro h
    cases h with
    | seq h1 h2 => exact ⟨_, _, rfl, h1, h2⟩
  · rintro ⟨x, y, rfl, h1, h2⟩
    exact .seq h1 h2

theorem alt_iff {a b : Rx} {s : List Char} : Lang (.alt a b) s ↔ Lang a s ∨ Lang b s := by
  constructor
  · intro h
    cases h with
    | left h => exact .inl h
    | right h => exact .inr h
  · rintro (h | h)
    · exact .left h
    · exact .right h

theorem oneOf_iff {w : String} {s : List Char} :
    Lang (oneOf w) s ↔ ∃ c ∈ w.toList, s = [c] := by
  unfold oneOf
  rw [chars_iff]
  constructor
  · rintro ⟨c, rfl, r, hr, h1, h2⟩
    obtain ⟨d, hd, rfl⟩ := List.mem_map.1 hr
    have : c = d := by simpa using Char.le_antisymm h2 h1
    exact ⟨d, hd, by rw [this]⟩
  · rintro ⟨c, hc, rfl⟩
    exact ⟨c, rfl, (c, c), List.mem_map.2 ⟨c, hc, rfl⟩, Char.le_refl _, Char.le_refl _⟩

/-- Strings of digits. -/
theorem digits_iff {s : List Char} :
    Lang (.star (.chars [('0', '9')])) s ↔ ∀ c ∈ s, isDigit09 c = true := by
  constructor
  · intro h
    generalize ha : Rx.star (.chars [('0', '9')]) = a at h
    induction h with
    | more h1 h2 ih1 ih2 =>
      cases ha
      obtain ⟨c, rfl, r, hr, h1, h2⟩ := chars_iff.1 h1
      simp only [List.mem_singleton] at hr
      subst hr
      intro d hd
      simp only [List.cons_append, List.nil_append, List.mem_cons] at hd
      rcases hd with rfl | hd
      · simp [isDigit09, h1, h2]
      · exact ih2 rfl d hd
    | done => simp
    | _ => cases ha
  · intro h
    induction s with
    | nil => exact .done _
    | cons c s ih =>
      have hc := h c (List.mem_cons_self ..)
      simp only [isDigit09, Bool.and_eq_true, decide_eq_true_eq] at hc
      exact .more (s := [c]) (.chars (List.mem_singleton.2 rfl) hc.1 hc.2)
        (ih fun d hd => h d (List.mem_cons_of_mem _ hd))

theorem alignment_iff (s : List Char) : alignmentMatch s = true ↔ alignmentRx.Begins s := by
  have hword : ∀ w : String, w.toList.isPrefixOf s = true ↔ ∃ r, s = w.toList ++ r := by
    intro w
    rw [List.isPrefixOf_iff_prefix]
    exact ⟨fun ⟨r, h⟩ => ⟨r, h.symm⟩, fun ⟨r, h⟩ => ⟨r, h.symm⟩⟩
  constructor
  · intro h
    cases s with
    | nil => simp [alignmentMatch] at h
    | cons c s =>
      simp only [alignmentMatch, Bool.or_eq_true, Bool.and_eq_true, decide_eq_true_eq,
        List.any_cons, List.any_nil, hword, Bool.or_false] at h
      rcases h with (h | rfl) | h | h | h | h
      · refine ⟨[c], s, rfl, .left ?_⟩
        exact .seq (s := [c]) (t := []) (.chars (List.mem_singleton.2 rfl) h.1 h.2) (.done _)
      · refine ⟨['0'], s, rfl, .right (.right (.right (.left ?_)))⟩
        exact .seq (s := ['0']) (t := []) (.word _) (.done _)
      · obtain ⟨r, h⟩ := h
        exact ⟨_, r, h, .right (.right (.right (.right (.left (.word _)))))⟩
      · obtain ⟨r, h⟩ := h
        exact ⟨_, r, h, .right (.right (.right (.right (.right (.left (.word _))))))⟩
      · obtain ⟨r, h⟩ := h
        exact ⟨_, r, h, .right (.right (.right (.right (.right (.right (.left (.word _)))))))⟩
      · obtain ⟨r, h⟩ := h
        exact ⟨_, r, h, .right (.right (.right (.right (.right (.right (.right (.word _)))))))⟩
  · rintro ⟨p, r, rfl, h⟩
    have hw : ∀ w ∈ ["UNSPECIFIED", "UNKNOWN", "BOOLEAN", "PTR"], p = w.toList →
        alignmentMatch (p ++ r) = true := by
      rintro w hw rfl
      have hany : (["UNSPECIFIED", "UNKNOWN", "BOOLEAN", "PTR"].any fun w' =>
          w'.toList.isPrefixOf (w.toList ++ r)) = true :=
        List.any_eq_true.2 ⟨w, hw, (hword w).2 ⟨r, rfl⟩⟩
      have hne : ∃ c q, w.toList ++ r = c :: q := by
        simp only [List.mem_cons, List.not_mem_nil, or_false] at hw
        rcases hw with rfl | rfl | rfl | rfl <;> exact ⟨_, _, rfl⟩
      obtain ⟨c, q, hq⟩ := hne
      rw [hq] at hany ⊢
      simp only [alignmentMatch, hany, Bool.or_true]
    have hz : ∀ b, Lang (.seq (text "0") b) p → alignmentMatch (p ++ r) = true := by
      intro b h
      obtain ⟨x, y, rfl, hx, -⟩ := seq_iff.1 h
      rw [text, word_iff] at hx
      subst hx
      simp [alignmentMatch]
    unfold alignmentRx at h
    rcases alt_iff.1 h with h | h
    · obtain ⟨x, y, rfl, hx, -⟩ := seq_iff.1 h
      obtain ⟨c, rfl, r', hr, h1, h2⟩ := chars_iff.1 hx
      simp only [List.mem_singleton] at hr
      subst hr
      simp only at h1 h2
      simp [alignmentMatch, h1, h2]
    rcases alt_iff.1 h with h | h
    · exact hz _ h
    rcases alt_iff.1 h with h | h
    · exact hz _ h
    rcases alt_iff.1 h with h | h
    · exact hz _ h
    rcases alt_iff.1 h with h | h
    · exact hw "UNSPECIFIED" (by simp) (word_iff.1 h)
    rcases alt_iff.1 h with h | h
    · exact hw "UNKNOWN" (by simp) (word_iff.1 h)
    rcases alt_iff.1 h with h | h
    · exact hw "BOOLEAN" (by simp) (word_iff.1 h)
    · exact hw "PTR" (by simp) (word_iff.1 h)

theorem plus_digits {s : List Char} :
    Lang (plus (.chars [('0', '9')])) s ↔
      ∃ d r, s = d :: r ∧ isDigit09 d = true ∧ ∀ c ∈ r, isDigit09 c = true := by
  unfold plus
  rw [seq_iff]
  constructor
  · rintro ⟨x, y, rfl, hx, hy⟩
    obtain ⟨c, rfl, r, hr, h1, h2⟩ := chars_iff.1 hx
    simp only [List.mem_singleton] at hr
    subst hr
    exact ⟨c, y, rfl, by simp [isDigit09, h1, h2], digits_iff.1 hy⟩
  · rintro ⟨d, r, rfl, hd, hr⟩
    simp only [isDigit09, Bool.and_eq_true, decide_eq_true_eq] at hd
    exact ⟨[d], r, rfl, .chars (List.mem_singleton.2 rfl) hd.1 hd.2, digits_iff.2 hr⟩

/-- The letters at the end of a display format. -/
def letters : List Char := ['d', 'i', 'o', 'u', 'x', 'X', 'f', 'e', 'E', 'g', 'G', 'c', 's']

theorem dropWhile_digits {ds r : List Char} (h : ∀ c ∈ ds, isDigit09 c = true) :
    (ds ++ r).dropWhile isDigit09 = r.dropWhile isDigit09 := by
  induction ds with
  | nil => rfl
  | cons d ds ih =>
    simp only [List.cons_append, List.dropWhile_cons, h d (List.mem_cons_self ..), if_true]
    exact ih fun c hc => h c (List.mem_cons_of_mem _ hc)

theorem takeWhile_split (s : List Char) :
    ∃ ds, (∀ c ∈ ds, isDigit09 c = true) ∧ s = ds ++ s.dropWhile isDigit09 := by
  refine ⟨s.takeWhile isDigit09, ?_, (List.takeWhile_append_dropWhile).symm⟩
  intro c hc
  have := List.all_takeWhile (l := s) (p := isDigit09)
  exact List.all_eq_true.1 this c hc

theorem format_iff (s : List Char) : formatMatch s = true ↔ formatRx.Begins s := by
  have hl : "diouxXfeEgGcs".toList = letters := by decide
  have hf : " -+#".toList = [' ', '-', '+', '#'] := by decide
  constructor
  · intro h
    unfold formatMatch at h
    split at h
    · rename_i s
      split at h
      · rename_i c rest hc
        have hflag : ∃ fl, Lang (opt (oneOf " -+#")) fl ∧ s = fl ++ skipFlag s := by
          cases s with
          | nil => exact ⟨[], .left (.word _), rfl⟩
          | cons c s =>
            simp only [skipFlag]
            split
            · rename_i hc
              exact ⟨[c], .right (oneOf_iff.2 ⟨c, by rw [hf]; exact hc, rfl⟩), rfl⟩
            · exact ⟨[], .left (.word _), rfl⟩
        obtain ⟨fl, hfl, e1⟩ := hflag
        obtain ⟨ds, hds, e2⟩ := takeWhile_split (skipFlag s)
        have hfrac : ∀ q, ∃ fr, Lang (opt (.seq (text ".") (plus (.chars [('0', '9')])))) fr ∧
            q = fr ++ skipFraction q := by
          intro q
          unfold skipFraction
          split
          · rename_i d r
            split
            · rename_i hd
              obtain ⟨ds', hds', e⟩ := takeWhile_split r
              refine ⟨'.' :: d :: ds', .right ?_, ?_⟩
              · exact seq_iff.2 ⟨['.'], d :: ds', rfl, .word _,
                  plus_digits.2 ⟨d, ds', rfl, hd, hds'⟩⟩
              · simp only [List.cons_append, List.cons.injEq, true_and]
                exact e
            · exact ⟨[], .left (.word _), rfl⟩
          · exact ⟨[], .left (.word _), rfl⟩
        obtain ⟨fr, hfr, e3⟩ := hfrac ((skipFlag s).dropWhile isDigit09)
        refine ⟨['%'] ++ (fl ++ (ds ++ (fr ++ [c]))), rest, ?_, ?_⟩
        · have : s = fl ++ (ds ++ (fr ++ (c :: rest))) := by
            rw [← hc, ← e3, ← e2, ← e1]
          rw [this]
          simp
        · exact .seq (.word _) (.seq hfl (.seq (digits_iff.2 hds) (.seq hfr
            (oneOf_iff.2 ⟨c, by rw [hl]; simpa [letters] using h, rfl⟩))))
      · cases h
    · cases h
  · rintro ⟨p, r, rfl, h⟩
    obtain ⟨x, y, rfl, hx, h⟩ := seq_iff.1 h
    rw [text, word_iff] at hx
    obtain ⟨fl, y, rfl, hfl, h⟩ := seq_iff.1 h
    obtain ⟨ds, y, rfl, hds, h⟩ := seq_iff.1 h
    obtain ⟨fr, y, rfl, hfr, h⟩ := seq_iff.1 h
    obtain ⟨c, hc, rfl⟩ := oneOf_iff.1 h
    rw [digits_iff] at hds
    rw [hl] at hc
    subst hx
    have hcd : isDigit09 c = false ∧ c ∉ [' ', '-', '+', '#'] ∧ c ≠ '.' := by
      have : ∀ c ∈ letters, isDigit09 c = false ∧ c ∉ [' ', '-', '+', '#'] ∧ c ≠ '.' := by decide
      exact this c hc
    have hdf : ∀ d, isDigit09 d = true → d ∉ [' ', '-', '+', '#'] := by
      intro d hd hm
      simp only [List.mem_cons, List.not_mem_nil, or_false] at hm
      rcases hm with rfl | rfl | rfl | rfl <;> revert hd <;> decide
    -- the fraction
    have h3 : skipFraction (fr ++ c :: r) = c :: r ∧
        (fr ++ c :: r).dropWhile isDigit09 = fr ++ c :: r ∧
        ∃ a q, fr ++ c :: r = a :: q ∧ a ∉ [' ', '-', '+', '#'] := by
      unfold opt at hfr
      rcases alt_iff.1 hfr with hfr | hfr
      · rw [word_iff] at hfr
        subst hfr
        refine ⟨?_, ?_, c, r, rfl, hcd.2.1⟩
        · simp only [List.nil_append]
          unfold skipFraction
          split
          · rename_i heq
            simp only [List.cons.injEq] at heq
            exact absurd heq.1 hcd.2.2
          · rfl
        · simp [hcd.1]
      · obtain ⟨x, y, rfl, hx, hy⟩ := seq_iff.1 hfr
        rw [text, word_iff] at hx
        subst hx
        obtain ⟨d, ds', rfl, hd, hds'⟩ := plus_digits.1 hy
        refine ⟨?_, ?_, '.', _, rfl, by decide⟩
        · show skipFraction ('.' :: d :: (ds' ++ c :: r)) = _
          simp only [skipFraction]
          rw [if_pos hd, dropWhile_digits hds']
          simp [hcd.1]
        · show ('.' :: d :: (ds' ++ c :: r)).dropWhile isDigit09 = _
          rw [List.dropWhile_cons, if_neg (by decide)]
          rfl
    have h2 : (ds ++ (fr ++ c :: r)).dropWhile isDigit09 = fr ++ c :: r ∧
        ∃ a q, ds ++ (fr ++ c :: r) = a :: q ∧ a ∉ [' ', '-', '+', '#'] := by
      refine ⟨by rw [dropWhile_digits hds, h3.2.1], ?_⟩
      cases ds with
      | nil => exact h3.2.2
      | cons d ds => exact ⟨d, _, rfl, hdf d (hds d (List.mem_cons_self ..))⟩
    have h1 : skipFlag (fl ++ (ds ++ (fr ++ c :: r))) = ds ++ (fr ++ c :: r) := by
      unfold opt at hfl
      rcases alt_iff.1 hfl with hfl | hfl
      · rw [word_iff] at hfl
        subst hfl
        obtain ⟨a, q, e, ha⟩ := h2.2
        rw [List.nil_append, e]
        simp only [skipFlag]
        rw [if_neg ha]
      · obtain ⟨f, hf', rfl⟩ := oneOf_iff.1 hfl
        rw [hf] at hf'
        show skipFlag (f :: _) = _
        simp only [skipFlag]
        rw [if_pos hf']
        rfl
    have e : "%".toList ++ (fl ++ (ds ++ (fr ++ [c]))) ++ r =
        '%' :: (fl ++ (ds ++ (fr ++ c :: r))) := by
      simp
    rw [e]
    show (match skipFraction ((skipFlag (fl ++ (ds ++ (fr ++ c :: r)))).dropWhile isDigit09) with
      | c :: _ => decide (c ∈ ['d', 'i', 'o', 'u', 'x', 'X', 'f', 'e', 'E', 'g', 'G', 'c', 's'])
      | [] => false) = true
    rw [h1, h2.1, h3.1]
    simpa [letters] using hc

end Verif.Codec.Pattern
