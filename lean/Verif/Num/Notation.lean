import Verif.Num.Limits
import Verif.Num.NotationSpec
import Verif.Num.TextLemmas
/-
What `int(text)`, `int(text, 0)` and `float(text)` make of the notations for whole numbers (C53).
-/
namespace Verif.Num.Notation
open Verif.Py Verif.Num

theorem digit_table : ∀ d < 16, ∀ c, "0123456789abcdef".toList[d]? = some c ∨
    "0123456789ABCDEF".toList[d]? = some c → c = Nat.digitChar d ∨ c = (Nat.digitChar d).toUpper := by
  intro d hd c
  have h : ∀ d < 16, "0123456789abcdef".toList[d]? = some (Nat.digitChar d) ∧
    "0123456789ABCDEF".toList[d]? = some (Nat.digitChar d).toUpper := by decide +kernel
  obtain ⟨h1, h2⟩ := h d hd
  rintro (h | h)
  · rw [h1] at h; cases h; exact .inl rfl
  · rw [h2] at h; cases h; exact .inr rfl

theorem digit_lt {c : Char} {d : Nat} (h : IsDigit c d) : d < 16 := by
  rcases h with h | h
  · have := (List.getElem?_eq_some_iff.1 h).1
    exact this
  · have := (List.getElem?_eq_some_iff.1 h).1
    exact this

theorem digit_char {c : Char} {d : Nat} (h : IsDigit c d) :
    c = Nat.digitChar d ∨ c = (Nat.digitChar d).toUpper :=
  digit_table d (digit_lt h) c h

/-- What is needed about a digit. -/
theorem digit_facts {c : Char} {d : Nat} (h : IsDigit c d) :
    (∀ b ≤ 16, d < b → dig b c = some d) ∧ isSpace c = false ∧ c ≠ '_' ∧ c ≠ '-' ∧ c ≠ '+' ∧
      (d < 10 → c = Nat.digitChar d) := by
  have key : ∀ d < 16, ∀ c, c = Nat.digitChar d ∨ c = (Nat.digitChar d).toUpper →
      (∀ b ≤ 16, d < b → dig b c = some d) ∧ isSpace c = false ∧ c ≠ '_' ∧ c ≠ '-' ∧ c ≠ '+' ∧
      (d < 10 → c = Nat.digitChar d) := by
    have h1 : ∀ d < 16, (∀ b ≤ 16, d < b → dig b (Nat.digitChar d) = some d) ∧
      isSpace (Nat.digitChar d) = false ∧ Nat.digitChar d ≠ '_' ∧ Nat.digitChar d ≠ '-' ∧
      Nat.digitChar d ≠ '+' ∧ (d < 10 → Nat.digitChar d = Nat.digitChar d) := by decide +kernel
    have h2 : ∀ d < 16, (∀ b ≤ 16, d < b → dig b (Nat.digitChar d).toUpper = some d) ∧
      isSpace (Nat.digitChar d).toUpper = false ∧ (Nat.digitChar d).toUpper ≠ '_' ∧
      (Nat.digitChar d).toUpper ≠ '-' ∧ (Nat.digitChar d).toUpper ≠ '+' ∧
      (d < 10 → (Nat.digitChar d).toUpper = Nat.digitChar d) := by decide +kernel
    rintro d hd c (rfl | rfl)
    · exact h1 d hd
    · exact h2 d hd
  exact key d (digit_lt h) c (digit_char h)

/-- The characters and their digits. -/
theorem numeral_digits {b : Nat} (hb : b ≤ 16) {s : List Char} {n : Nat} (h : Numeral b s n) :
    ∃ l : List Nat, l ≠ [] ∧ (∀ d ∈ l, d < b) ∧ ofDigs b l = n ∧ digitsU b s = some l ∧
      (∀ c ∈ s, isSpace c = false ∧ c ≠ '_' ∧ c ≠ '-' ∧ c ≠ '+') ∧
      (b ≤ 10 → s = l.map Nat.digitChar) := by
  induction h with
  | @digit c d hd hlt =>
    have hf := digit_facts hd
    refine ⟨[d], by simp, by simpa using hlt, by simp [ofDigs], ?_, ?_, ?_⟩
    · simp [digitsU, hf.1 b hb hlt]
    · simp [hf.2.1, hf.2.2.1, hf.2.2.2.1, hf.2.2.2.2.1]
    · intro h10
      simp [hf.2.2.2.2.2 (by omega)]
  | @more cs n c d h hd hlt ih =>
    obtain ⟨l, h1, h2, h3, h4, h5, h6⟩ := ih
    have hf := digit_facts hd
    refine ⟨l ++ [d], by simp, ?_, ?_, ?_, ?_, ?_⟩
    · intro x hx
      rcases List.mem_append.1 hx with hx | hx
      · exact h2 x hx
      · simp at hx; omega
    · rw [ofDigs_snoc, h3]
    · exact snoc cs l h4 (fun x hx => (h5 x hx).2.1) hf.2.2.1 (hf.1 b hb hlt)
    · intro x hx
      rcases List.mem_append.1 hx with hx | hx
      · exact h5 x hx
      · simp at hx
        subst hx
        exact ⟨hf.2.1, hf.2.2.1, hf.2.2.2.1, hf.2.2.2.2.1⟩
    · intro h10
      rw [List.map_append, ← h6 h10]
      simp [hf.2.2.2.2.2 (by omega)]
where
  snoc {b : Nat} {c : Char} {d : Nat} : ∀ (s : List Char) (l : List Nat), digitsU b s = some l →
      (∀ x ∈ s, x ≠ '_') → c ≠ '_' → dig b c = some d → digitsU b (s ++ [c]) = some (l ++ [d])
  | [], _, h, _, _, _ => by simp [digitsU] at h
  | [x], l, h, _, hc, hd => by
    have hx : ∃ e, dig b x = some e ∧ l = [e] := by
      unfold digitsU at h
      cases he : dig b x with
      | none => simp [he] at h
      | some e =>
        simp [he] at h
        exact ⟨e, rfl, h.symm⟩
    obtain ⟨e, he, rfl⟩ := hx
    show digitsU b [x, c] = _
    rw [digitsU_cons_cons _ _ _ _ hc, he]
    simp [digitsU, hd]
  | x :: y :: s, l, h, hs, hc, hd => by
    rw [digitsU_cons_cons _ _ _ _ (hs y (by simp))] at h
    show digitsU b (x :: y :: (s ++ [c])) = _
    rw [digitsU_cons_cons _ _ _ _ (hs y (by simp))]
    cases he : dig b x with
    | none => rw [he] at h; cases h
    | some e =>
      rw [he] at h
      obtain ⟨l', hl', rfl⟩ := Option.map_eq_some_iff.1 h
      have := snoc (y :: s) l' hl' (fun z hz => hs z (List.mem_cons_of_mem _ hz)) hc hd
      simp only [List.cons_append] at this
      simp only [this]
      rfl

theorem dec_float {l : List Nat} (hne : l ≠ []) (hl : ∀ d ∈ l, d < 10) :
    parseDecimal (l.map Nat.digitChar) = some (ofDigs 10 l, 0) := by
  unfold parseDecimal
  rw [splitAt?_none (no_e hl)]
  simp only
  rw [splitAt?_none (no_dot hl)]
  rw [optDigits_map l hl]
  simp [optDigits, hne]

theorem not_word {l : List Nat} (hl : ∀ d ∈ l, d < 10) (hne : l ≠ []) :
    ¬ ((l.map Nat.digitChar).map lower = "inf".toList ∨
      (l.map Nat.digitChar).map lower = "infinity".toList) ∧
    (l.map Nat.digitChar).map lower ≠ "nan".toList := by
  cases l with
  | nil => exact absurd rfl hne
  | cons d l =>
    have hd := (digitChar_props10 (hl d (by simp))).2.2.2.2
    refine ⟨?_, ?_⟩
    · rintro (h | h)
      · have := congrArg List.head? h
        simp at this
        exact hd.1 this
      · have := congrArg List.head? h
        simp at this
        exact hd.1 this
    · intro h
      have := congrArg List.head? h
      simp at this
      exact hd.2 this

/-- Digits, with a sign or without. -/
theorem signed {l : List Nat} (hne : l ≠ []) (hl : ∀ d ∈ l, d < 10) (sgn : List Char) (neg : Bool)
    (hs : (sgn, neg) ∈ [([], false), (['+'], false), (['-'], true)]) :
    pyInt (sgn ++ l.map Nat.digitChar) = some (withSign neg (ofDigs 10 l)) ∧
    pyInt0 (sgn ++ l.map Nat.digitChar) = (if l.head? = some 0 ∧ ofDigs 10 l ≠ 0 then none
      else some (withSign neg (ofDigs 10 l))) ∧
    pyFloat (sgn ++ l.map Nat.digitChar) =
      some (.fin neg (canon (ofDigs 10 l) 0).1 (canon (ofDigs 10 l) 0).2) := by
  have hl16 : ∀ d ∈ l, d < 16 := fun d hd => Nat.lt_trans (hl d hd) (by decide)
  have hsp : strip (sgn ++ l.map Nat.digitChar) = sgn ++ l.map Nat.digitChar := by
    apply strip_none
    intro c hc
    rcases List.mem_append.1 hc with hc | hc
    · simp only [List.mem_cons, Prod.mk.injEq, List.not_mem_nil, or_false] at hs
      rcases hs with ⟨rfl, -⟩ | ⟨rfl, -⟩ | ⟨rfl, -⟩
      · cases hc
      · simp at hc; subst hc; decide
      · simp at hc; subst hc; decide
    · exact map_digit_space hl16 c hc
  have hts : takeSign (sgn ++ l.map Nat.digitChar) = (neg, l.map Nat.digitChar) := by
    simp only [List.mem_cons, Prod.mk.injEq, List.not_mem_nil, or_false] at hs
    rcases hs with ⟨rfl, rfl⟩ | ⟨rfl, rfl⟩ | ⟨rfl, rfl⟩
    · have := map_digit_head hl16
      exact takeSign_none this.1 this.2.1
    · rfl
    · rfl
  have hd := digitsU_map (b := 10) (by decide) l hne hl
  refine ⟨?_, ?_, ?_⟩
  · simp only [pyInt, hsp, hts, hd, Option.map_some]
  · simp only [pyInt0, hsp, hts, int0Body_digits l hne hl]
    split <;> rfl
  · have hw := not_word hl hne
    simp only [pyFloat, hsp, hts]
    rw [if_neg hw.1, if_neg hw.2, dec_float hne hl]

theorem decimal_all {s : List Char} {n : Int} (h : Denotes .decimal s n) :
    pyInt s = some n ∧ pyInt0 s = some n ∧ pyFloat s = some (toFloat (.int n)) := by
  have main : ∀ {c : Char} {cs : List Char} {k : Nat} (sgn : List Char) (neg : Bool),
      (sgn, neg) ∈ [([], false), (['+'], false), (['-'], true)] → c ≠ '0' →
      Numeral 10 (c :: cs) k →
      pyInt (sgn ++ c :: cs) = some (withSign neg k) ∧ pyInt0 (sgn ++ c :: cs) = some (withSign neg k) ∧
      pyFloat (sgn ++ c :: cs) = some (toFloat (.int (withSign neg k))) := by
    intro c cs k sgn neg hs hc hn
    obtain ⟨l, h1, h2, h3, h4, h5, h6⟩ := numeral_digits (by decide) hn
    have h6 := h6 (by decide)
    obtain ⟨g1, g2, g3⟩ := signed h1 h2 sgn neg hs
    rw [h6, g1, g2, g3, h3]
    have hhead : l.head? ≠ some 0 := by
      intro hz
      cases l with
      | nil => exact absurd rfl h1
      | cons d l =>
        simp at hz
        subst hz
        simp only [List.map_cons, List.cons.injEq] at h6
        exact hc h6.1
    have hpos : k ≠ 0 := by
      intro hk
      subst hk
      exact hhead (lead_zero l h1 h3)
    refine ⟨rfl, by rw [if_neg (fun h => hhead h.1)], ?_⟩
    congr 1
    have : (withSign neg k).natAbs = k := by unfold withSign; split <;> simp
    have hneg : decide (withSign neg k < 0) = neg := by
      unfold withSign
      cases neg
      · simp
      · simp; omega
    simp only [toFloat, this]
    congr 1
    exact hneg.symm
  cases h with
  | zero => exact ⟨by decide +kernel, by decide +kernel, by decide +kernel⟩
  | decimal hc hn => exact main [] false (by simp) hc hn
  | plus hc hn => exact main ['+'] false (by simp) hc hn
  | minus hc hn => exact main ['-'] true (by simp) hc hn
where
  fold_pos : ∀ (l : List Nat) (a : Nat), l.foldl (fun a d => 10 * a + d) a = 0 → a = 0 ∧ ∀ d ∈ l, d = 0
  | [], a, h => ⟨h, by simp⟩
  | d :: l, a, h => by
    obtain ⟨h1, h2⟩ := fold_pos l (10 * a + d) h
    refine ⟨by omega, ?_⟩
    intro x hx
    rcases List.mem_cons.1 hx with rfl | hx
    · omega
    · exact h2 x hx
  lead_zero : ∀ (l : List Nat), l ≠ [] → ofDigs 10 l = 0 → l.head? = some 0
  | [], h, _ => absurd rfl h
  | d :: l, _, h => by
    have := (fold_pos (d :: l) 0 h).2 d (by simp)
    simp [this]

/-- Hexadecimal and binary. -/
theorem radix_all {nt : Notation} {s : List Char} {n : Int} (h : Denotes nt s n)
    (hnt : nt = .hexadecimal ∨ nt = .binary) :
    pyInt s = none ∧ pyInt0 s = some n ∧ pyFloat s = none ∧ 0 ≤ n := by
  have main : ∀ {x : Char} {cs : List Char} {k b : Nat}, b ≤ 16 → isSpace x = false → x ≠ '_' →
      dig 10 x = none → x ≠ '.' → x ≠ 'e' → x ≠ 'E' → Numeral b cs k →
      int0Body ('0' :: x :: cs) = prefixed b cs →
      pyInt ('0' :: x :: cs) = none ∧ pyInt0 ('0' :: x :: cs) = some (k : Int) ∧
      pyFloat ('0' :: x :: cs) = none := by
    intro x cs k b hb hx hx' hx10 hdot he hE hn hbody
    obtain ⟨l, h1, h2, h3, h4, h5, h6⟩ := numeral_digits hb hn
    have hsp : strip ('0' :: x :: cs) = '0' :: x :: cs := by
      apply strip_none
      intro c hc
      simp only [List.mem_cons] at hc
      rcases hc with rfl | rfl | hc
      · decide
      · exact hx
      · exact (h5 c hc).1
    have hts : takeSign ('0' :: x :: cs) = (false, '0' :: x :: cs) :=
      takeSign_none (by simp) (by simp)
    have hpre : prefixed b cs = some k := by
      cases cs with
      | nil => simp [digitsU] at h4
      | cons c cs =>
        unfold prefixed
        split
        · rename_i heq
          cases heq
          exact absurd rfl (h5 '_' (by simp)).2.1
        · rw [h4]; simp [h3]
    refine ⟨?_, ?_, ?_⟩
    · simp only [pyInt, hsp, hts]
      rw [digitsU_none_of_mem (c := x) (by simp) hx' hx10]
      rfl
    · simp only [pyInt0, hsp, hts, hbody, hpre]
      rfl
    · simp only [pyFloat, hsp, hts]
      rw [if_neg, if_neg]
      · have hpd : parseDecimal ('0' :: x :: cs) = none := by
          unfold parseDecimal
          have e1 : splitAt? (fun c => decide (c = 'e') || decide (c = 'E')) ('0' :: x :: cs) =
              ('0' :: x :: (splitAt? (fun c => decide (c = 'e') || decide (c = 'E')) cs).1,
                (splitAt? (fun c => decide (c = 'e') || decide (c = 'E')) cs).2) := by
            simp [splitAt?, he, hE]
          rw [e1]
          simp only
          generalize (splitAt? (fun c => decide (c = 'e') || decide (c = 'E')) cs).1 = mant
          have e2 : splitAt? (fun c => decide (c = '.')) ('0' :: x :: mant) =
              ('0' :: x :: (splitAt? (fun c => decide (c = '.')) mant).1,
                (splitAt? (fun c => decide (c = '.')) mant).2) := by
            simp [splitAt?, hdot]
          rw [e2]
          simp only
          have e3 : optDigits ('0' :: x :: (splitAt? (fun c => decide (c = '.')) mant).1) = none := by
            unfold optDigits
            rw [if_neg (by simp)]
            exact digitsU_none_of_mem (c := x) (by simp) hx' hx10
          rw [e3]
        rw [hpd]
      · intro h; simp [lower] at h
      · rintro (h | h) <;> simp [lower] at h
  cases h with
  | @hexadecimal x cs n hx hn =>
    obtain ⟨h1, h2, h3⟩ := main (x := x) (b := 16) (by decide)
      (by rcases hx with rfl | rfl <;> decide) (by rcases hx with rfl | rfl <;> decide)
      (by rcases hx with rfl | rfl <;> decide) (by rcases hx with rfl | rfl <;> decide)
      (by rcases hx with rfl | rfl <;> decide) (by rcases hx with rfl | rfl <;> decide) hn
      (by rcases hx with rfl | rfl <;> rfl)
    exact ⟨h1, h2, h3, by omega⟩
  | @binary x cs n hx hn =>
    obtain ⟨h1, h2, h3⟩ := main (x := x) (b := 2) (by decide)
      (by rcases hx with rfl | rfl <;> decide) (by rcases hx with rfl | rfl <;> decide)
      (by rcases hx with rfl | rfl <;> decide) (by rcases hx with rfl | rfl <;> decide)
      (by rcases hx with rfl | rfl <;> decide) (by rcases hx with rfl | rfl <;> decide) hn
      (by rcases hx with rfl | rfl <;> rfl)
    exact ⟨h1, h2, h3, by omega⟩
  | _ => rcases hnt with hnt | hnt <;> cases hnt

theorem Numeral.cons0 {b : Nat} (hb : 0 < b) {cs : List Char} {n : Nat} (h : Numeral b cs n) :
    Numeral b ('0' :: cs) n := by
  have h0 : Numeral b ['0'] 0 := .digit (.inl rfl) hb
  induction h with
  | digit hd hlt =>
    have := h0.more hd hlt
    simpa using this
  | more _ hd hlt ih => exact ih.more hd hlt

/-- Octal: the digits are taken as decimal ones, and `int(text, 0)` refuses them unless they are
all zero. -/
theorem octal_all {s : List Char} {n : Int} (h : Denotes .octal s n) :
    ∃ m : Nat, Numeral 10 s m ∧ n ≤ m ∧ (n < 8 ↔ (m : Int) = n) ∧ pyInt s = some (m : Int) ∧
      pyInt0 s = (if m = 0 then some 0 else none) ∧ pyFloat s = some (toFloat (.int m)) := by
  cases h with
  | @octal cs n hn =>
    obtain ⟨l, h1, h2, h3, h4, h5, h6⟩ := numeral_digits (by decide) hn
    have h6 := h6 (by decide)
    have h10 : ∀ d ∈ (0 :: l), d < 10 := by
      intro d hd
      rcases List.mem_cons.1 hd with rfl | hd
      · decide
      · have := h2 d hd; omega
    obtain ⟨g1, g2, g3⟩ := signed (l := 0 :: l) (by simp) h10 [] false (by simp)
    have hs : ([] : List Char) ++ (0 :: l).map Nat.digitChar = '0' :: cs := by
      simp [h6]
    have hz : ofDigs 10 (0 :: l) = ofDigs 10 l := by simp [ofDigs]
    rw [hs, hz] at g1 g2 g3
    refine ⟨ofDigs 10 l, ?_, ?_, ?_, g1, ?_, ?_⟩
    · have := numeral10 hn
      obtain ⟨k, hk⟩ := this
      obtain ⟨l', k1, k2, k3, k4, k5, k6⟩ := numeral_digits (by decide) hk
      have hll : l'.map Nat.digitChar = l.map Nat.digitChar := by rw [← k6 (by decide), h6]
      have : l' = l := map_digitChar_inj _ _ (fun d hd => by have := k2 d hd; omega)
        (fun d hd => by have := h2 d hd; omega) hll
      subst this
      rw [k3]
      exact hk.cons0 (by decide)
    · rw [← h3]
      have := (fold_le l h2 0 0 (Nat.le_refl _)).1
      unfold ofDigs
      omega
    · rw [← h3]
      have := compare l h2
      omega
    · rw [g2]
      simp only [List.head?_cons, true_and]
      by_cases hm : ofDigs 10 l = 0
      · simp [hm, withSign]
      · simp [hm]
    · rw [g3]
      simp [toFloat]
where
  numeral10 {cs : List Char} {n : Nat} (h : Numeral 8 cs n) : ∃ m, Numeral 10 cs m := by
    induction h with
    | digit hd hlt => exact ⟨_, .digit hd (by omega)⟩
    | more _ hd hlt ih => obtain ⟨m, hm⟩ := ih; exact ⟨_, .more hm hd (by omega)⟩
  fold_le : ∀ (l : List Nat), (∀ d ∈ l, d < 8) → ∀ a b : Nat, a ≤ b →
      l.foldl (fun a d => 8 * a + d) a ≤ l.foldl (fun a d => 10 * a + d) b ∧
      (0 < a → l ≠ [] → l.foldl (fun a d => 8 * a + d) a < l.foldl (fun a d => 10 * a + d) b ∧
        8 ≤ l.foldl (fun a d => 8 * a + d) a)
  | [], _, a, b, h => ⟨h, fun _ h => absurd rfl h⟩
  | d :: l, hl, a, b, h => by
    have hl' : ∀ d ∈ l, d < 8 := fun x hx => hl x (List.mem_cons_of_mem _ hx)
    have ih := fold_le l hl' (8 * a + d) (10 * b + d) (by omega)
    refine ⟨ih.1, ?_⟩
    intro ha _
    cases l with
    | nil => simp only [List.foldl_cons, List.foldl_nil]; omega
    | cons e l => exact ih.2 (by omega) (by simp)
  compare : ∀ l : List Nat, (∀ d ∈ l, d < 8) → (ofDigs 8 l < 8 ↔ ofDigs 10 l = ofDigs 8 l)
  | [], _ => by simp [ofDigs]
  | d :: l, hl => by
    have hl' : ∀ d ∈ l, d < 8 := fun x hx => hl x (List.mem_cons_of_mem _ hx)
    have h8 : ofDigs 8 (d :: l) = l.foldl (fun a d => 8 * a + d) d := by simp [ofDigs]
    have h10 : ofDigs 10 (d :: l) = l.foldl (fun a d => 10 * a + d) d := by simp [ofDigs]
    rw [h8, h10]
    by_cases hd : d = 0
    · subst hd
      exact compare l hl'
    · cases l with
      | nil =>
        exact ⟨fun _ => rfl, fun _ => hl d (by simp)⟩
      | cons e l =>
        have := (fold_le (e :: l) hl' d d (Nat.le_refl _)).2 (by omega) (by simp)
        omega

end Verif.Num.Notation
