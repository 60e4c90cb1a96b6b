import Verif.Codec.Check
import Verif.Props.Num
import Verif.Props.Enums
/-
Single values: what is written for them is read back.
-/
set_option linter.unusedSimpArgs false
set_option linter.unusedVariables false
set_option linter.unusedSectionVars false
namespace Verif.Codec
open Verif.Py Verif.Enums Verif.Num Verif.Xml Verif.Xml.Spec Verif.Props.Num
open Verif.Ref (RefObj construct DestArg refClasses)

variable {C W R : Type} [DecidableEq C] [DecidableEq W] [DecidableEq R]

/-! ### Numbers -/

/-- Characters of decimal numbers. -/
def numChar (c : Char) : Prop := (∃ d, d < 10 ∧ c = Nat.digitChar d) ∨ c = '.' ∨ c = 'E' ∨ c = '-'

theorem numChar_ne {c : Char} (h : numChar c) :
    c ≠ 'x' ∧ c ≠ 'X' ∧ c ≠ 'b' ∧ c ≠ 'B' ∧ c ≠ 'o' ∧ c ≠ 'O' := by
  rcases h with ⟨d, hd, rfl⟩ | rfl | rfl | rfl
  · revert d; decide
  · decide
  · decide
  · decide

theorem numChar_decStr (n : Nat) : ∀ c ∈ decStr n, numChar c := by
  intro c hc
  simp only [decStr, List.mem_map] at hc
  obtain ⟨d, hd, rfl⟩ := hc
  exact Or.inl ⟨d, digs_lt n d hd, rfl⟩

theorem numChar_sign (neg : Bool) : ∀ c ∈ signStr neg, numChar c := by
  cases neg <;> simp [signStr, numChar]

theorem numChar_intStr (i : Int) : ∀ c ∈ intStr i, numChar c := by
  intro c hc
  simp only [intStr, List.mem_append] at hc
  rcases hc with hc | hc
  · exact numChar_sign _ c hc
  · exact numChar_decStr _ c hc

theorem numChar_zero : numChar '0' := Or.inl ⟨0, by decide, by decide⟩

theorem numChar_decimalStr (neg : Bool) (c : Nat) (e : Int) :
    ∀ x ∈ decimalStr neg c e, numChar x := by
  intro x hx
  have hd := numChar_decStr c
  have hs := numChar_sign neg
  have h0 : numChar '0' := numChar_zero
  have h1 : numChar '.' := Or.inr (Or.inl rfl)
  have h2 : numChar 'E' := Or.inr (Or.inr (Or.inl rfl))
  have h3 : numChar '-' := Or.inr (Or.inr (Or.inr rfl))
  unfold decimalStr at hx
  simp only at hx
  split at hx
  · simp only [List.mem_append] at hx
    rcases hx with hx | hx
    · exact hs x hx
    · exact hd x hx
  · split at hx
    · split at hx
      · simp only [List.mem_append, List.mem_cons] at hx
        rcases hx with (hx | hx) | rfl | hx
        · exact hs x hx
        · exact hd x (List.mem_of_mem_take hx)
        · exact h1
        · exact hd x (List.mem_of_mem_drop hx)
      · simp only [List.mem_append, List.mem_cons, List.mem_replicate] at hx
        rcases hx with hx | rfl | rfl | ⟨_, rfl⟩ | hx
        · exact hs x hx
        · exact h0
        · exact h1
        · exact h0
        · exact hd x hx
    · simp only [List.mem_append, List.mem_cons] at hx
      rcases hx with ((hx | hx) | hx) | rfl | rfl | hx
      · exact hs x hx
      · exact hd x (List.mem_of_mem_take hx)
      · split at hx
        · simp only [List.mem_cons] at hx
          rcases hx with rfl | hx
          · exact h1
          · exact hd x (List.mem_of_mem_drop hx)
        · simp at hx
      · exact h2
      · exact h3
      · exact numChar_decStr _ x hx

/-- The format is the default one when there is no base prefix. -/
theorem numericalValue_default {s : List Char} (h : ∀ c ∈ s, numChar c) :
    numericalValueOfText s = match pyInt0 s with
      | some i => .ok ⟨.int i, .default⟩
      | none => match pyFloat s with
        | some f => .ok ⟨.float f, .default⟩
        | none => .error .valueError := by
  unfold numericalValueOfText
  extract_lets fmt
  have hf : fmt = .default := by
    simp only [fmt]
    split
    · exact absurd rfl (numChar_ne (h 'x' (by simp))).1
    · exact absurd rfl (numChar_ne (h 'b' (by simp))).2.2.1
    · rfl
  rw [hf]
  cases pyInt0 s <;> cases pyFloat s <;> rfl

/-- Without base prefix `int(text, 0)` refuses what is not a run of digits. -/
theorem int0Body_none {s : List Char} (h : ∀ c ∈ s, numChar c) (hd : digitsU 10 s = none) :
    int0Body s = none := by
  unfold int0Body
  split
  · exact absurd rfl (numChar_ne (h 'x' (by simp))).1
  · exact absurd rfl (numChar_ne (h 'X' (by simp))).2.1
  · exact absurd rfl (numChar_ne (h 'b' (by simp))).2.2.1
  · exact absurd rfl (numChar_ne (h 'B' (by simp))).2.2.2.1
  · exact absurd rfl (numChar_ne (h 'o' (by simp))).2.2.2.2.1
  · exact absurd rfl (numChar_ne (h 'O' (by simp))).2.2.2.2.2
  · rw [hd]

theorem pyInt0_decimalStr (neg : Bool) (c : Nat) (e : Int) (he : e < 0) :
    pyInt0 (decimalStr neg c e) = none := by
  obtain ⟨-, h2⟩ := decimalStr_spec c e he
  have hn := numChar_decimalStr neg c e
  rw [decimalStr_eq_sign] at hn ⊢
  obtain ⟨a, b⟩ := nonInt_sign neg h2
  unfold pyInt0
  rw [a, b]
  have : digitsU 10 (decimalStr false c e) = none := by
    rcases h2.mark with hm | hm
    · exact digitsU_none_of_mem hm (by decide) (by decide)
    · exact digitsU_none_of_mem hm (by decide) (by decide)
  simp [int0Body_none (fun x hx => hn x (by simp [hx])) this]

theorem numericalValue_int (i : Int) :
    numericalValueOfText (intStr i) = .ok ⟨.int i, .default⟩ := by
  rw [numericalValue_default (numChar_intStr i), pyInt0_intStr]

/-- `float(text)` of a plain run of digits. -/
theorem pyFloat_digits (neg : Bool) (n : Nat) :
    pyFloat (signStr neg ++ decStr n) = some (.fin neg (canon n 0).1 (canon n 0).2) := by
  have hsp : strip (signStr neg ++ decStr n) = signStr neg ++ decStr n := by
    apply strip_none
    intro c hc
    simp only [List.mem_append] at hc
    rcases hc with hc | hc
    · exact signStr_space _ c hc
    · exact map_digit_space (digs_lt16 n) c hc
  match hd : digs n, digs_ne_nil n, digs_lt n with
  | d :: ds, _, hlt =>
    have hd10 := hlt d (by simp)
    have p := digitChar_props (Nat.lt_trans hd10 (by decide : 10 < 16))
    have p10 := digitChar_props10 hd10
    have hdec : decStr n = Nat.digitChar d :: ds.map Nat.digitChar := by simp [decStr, hd]
    have hts : takeSign (signStr neg ++ decStr n) = (neg, decStr n) := by
      rw [hdec]
      exact takeSign_signStr neg (by simp [p.2.1]) (by simp [p.2.2.1])
    unfold pyFloat
    rw [hsp, hts]
    have hpd : parseDecimal (decStr n) = some (n, 0) := by
      unfold parseDecimal
      rw [decStr, splitAt?_none (no_e (digs_lt n))]
      simp only
      rw [splitAt?_none (no_dot (digs_lt n)), optDigits_map _ (digs_lt n)]
      simp [optDigits, ofDigs_digs, digs_ne_nil]
    rw [hdec] at hpd ⊢
    have n1 : (Nat.digitChar d :: ds.map Nat.digitChar).map lower ≠ "inf".toList := by
      intro he
      have : lower (Nat.digitChar d) = 'i' := by
        have := congrArg List.head? he
        simpa using this
      exact p10.2.2.2.2.1 this
    have n2 : (Nat.digitChar d :: ds.map Nat.digitChar).map lower ≠ "infinity".toList := by
      intro he
      have : lower (Nat.digitChar d) = 'i' := by
        have := congrArg List.head? he
        simpa using this
      exact p10.2.2.2.2.1 this
    have n3 : (Nat.digitChar d :: ds.map Nat.digitChar).map lower ≠ "nan".toList := by
      intro he
      have : lower (Nat.digitChar d) = 'n' := by
        have := congrArg List.head? he
        simpa using this
      exact p10.2.2.2.2.2 this
    simp only [n1, n2, n3, or_self, if_false, hpd]

theorem canon_of_mod {c : Nat} {e : Int} (h : (c = 0 ∧ e = 0) ∨ c % 10 ≠ 0) :
    canon c e = (c, e) := by
  rw [canon]
  rcases h with ⟨rfl, rfl⟩ | h
  · simp
  · have : c ≠ 0 := by omega
    simp [this, h]

theorem decStr_ne (neg : Bool) (n : Nat) : signStr neg ++ decStr n ≠ [] := by
  simp [decStr_ne_nil]

/-- A float is written, and the text is read back by each of the readers. -/
theorem float_text (f : PyFloat) (h : floatOk f = true) :
    ∃ t, formatFloat f = .ok t ∧ t ≠ [] ∧ readNumber t = .ok (canonNum (.float f)) ∧
      numericalValueOfText t = .ok ⟨canonNum (.float f), .default⟩ ∧ pyFloat t = some f := by
  cases f with
  | inf neg =>
    cases neg
    · exact ⟨_, rfl, by decide, by decide +kernel, by decide +kernel, by decide +kernel⟩
    · exact ⟨_, rfl, by decide, by decide +kernel, by decide +kernel, by decide +kernel⟩
  | nan => exact ⟨_, rfl, by decide, by decide +kernel, by decide +kernel, by decide +kernel⟩
  | fin neg c e =>
    simp only [floatOk, Bool.and_eq_true, Bool.or_eq_true, decide_eq_true_eq] at h
    have hcan : canon c e = (c, e) := canon_of_mod h.1
    by_cases hc : c = 0
    · subst hc
      have he : e = 0 := by
        rcases h.1 with h | h
        · exact h.2
        · simp at h
      subst he
      cases neg
      · refine ⟨['0'], rfl, by simp, ?_⟩
        refine ⟨by decide +kernel, by decide +kernel, ?_⟩
        have := pyFloat_digits false 0
        simpa [decStr_zero, signStr, hcan] using this
      · refine ⟨['-', '0'], rfl, by simp, ?_⟩
        refine ⟨by decide +kernel, by decide +kernel, ?_⟩
        have := pyFloat_digits true 0
        simpa [decStr_zero, signStr, hcan] using this
    · by_cases he : 0 ≤ e
      · have hsize : c * 10 ^ e.toNat < 10 ^ 28 := by
          rcases h.2 with h2 | h2
          · omega
          · exact h2
        have hpos : c * 10 ^ e.toNat ≠ 0 :=
          Nat.mul_ne_zero hc (Nat.ne_of_gt (Nat.pow_pos (by decide)))
        have hnd : ¬ numDigits (c * 10 ^ e.toNat) > precision := by
          have := (numDigits_le_iff (c * 10 ^ e.toNat) 28 (by decide)).2 hsize
          unfold precision; omega
        have hcn : canonNum (.float (.fin neg c e)) = .int (withSign neg (c * 10 ^ e.toNat)) := by
          simp only [canonNum, hc, if_false, he, if_true, withSign]
          cases neg <;> simp
        refine ⟨signStr neg ++ decStr (c * 10 ^ e.toNat), ?_, decStr_ne _ _, ?_, ?_, ?_⟩
        · simp [formatFloat, hc, he, hnd]
        · rw [hcn, intStr_sign neg _ hpos]
          simp [readNumber, pyInt_intStr]
        · rw [hcn, intStr_sign neg _ hpos, numericalValue_int]
        · rw [pyFloat_digits, canon_pow c hc]
          have : (0 : Int) + (e.toNat : Int) = e := by omega
          rw [this, hcan]
      · have he' : e < 0 := by omega
        have hcn : canonNum (.float (.fin neg c e)) = .float (.fin neg c e) := by
          simp [canonNum, hc, he]
        have hr := readNumber_decimalStr neg c e he' hcan
        refine ⟨decimalStr neg c e, ?_, ?_, ?_, ?_, hr.2⟩
        · simp only [formatFloat, hc, if_false, he]
        · intro h0
          have := hr.1
          rw [h0] at this
          simp [readNumber, pyInt, pyFloat, strip, takeSign, digitsU, parseDecimal, splitAt?, optDigits] at this
        · rw [hcn]; exact hr.1
        · rw [hcn, numericalValue_default (numChar_decimalStr neg c e),
            pyInt0_decimalStr neg c e he', hr.2]

/-- `float(x)` of the number read back for a float is the float, unless it is `-0.0`. -/
theorem toFloat_canonNum (f : PyFloat) (h : floatOk f = true) (hz : f ≠ .fin true 0 0) :
    toFloat (canonNum (.float f)) = f := by
  cases f with
  | inf neg => rfl
  | nan => rfl
  | fin neg c e =>
    simp only [floatOk, Bool.and_eq_true, Bool.or_eq_true, decide_eq_true_eq] at h
    have hcan : canon c e = (c, e) := canon_of_mod h.1
    by_cases hc : c = 0
    · subst hc
      have he : e = 0 := by
        rcases h.1 with h | h
        · exact h.2
        · simp at h
      subst he
      cases neg
      · simp [canonNum, toFloat, hcan]
      · exact absurd rfl hz
    · by_cases he : 0 ≤ e
      · have hpos : 0 < c * 10 ^ e.toNat := Nat.mul_pos (by omega) (Nat.pow_pos (by decide))
        have hcp := canon_pow c hc e.toNat 0
        have hee : (0 : Int) + (e.toNat : Int) = e := by omega
        rw [hee, hcan] at hcp
        have hcast : (c * 10 ^ e.toNat : Int) = ((c * 10 ^ e.toNat : Nat) : Int) := by simp
        simp only [canonNum, hc, if_false, he, if_true, hcast]
        cases neg
        · simp only [Bool.false_eq_true, if_false, toFloat, Int.natAbs_natCast, hcp]
          simp
          omega
        · simp only [if_true, toFloat, Int.natAbs_neg, Int.natAbs_natCast, hcp]
          simp
          omega
      · simp [canonNum, hc, he, toFloat]

/-- Any writable number. -/
theorem number_text (n : PyNum) (h : numOk n = true) :
    ∃ t, formatNumber n = .ok t ∧ t ≠ [] ∧ readNumber t = .ok (canonNum n) := by
  cases n with
  | int i =>
    refine ⟨intStr i, rfl, ?_, ?_⟩
    · simp [intStr, decStr_ne_nil]
    · simp [readNumber, pyInt_intStr, canonNum]
  | float f =>
    obtain ⟨t, h1, h2, h3, -, -⟩ := float_text f h
    exact ⟨t, h1, h2, h3⟩

theorem ofList_ne {t : List Char} (h : t ≠ []) : String.ofList t ≠ "" := by
  intro h'
  apply h
  have := congrArg String.toList h'
  simpa using this

/-! ### Enumeration members and references -/

theorem enum_text {m : Member} (h : enumOk m = true) :
    ∃ t, enumToXml m defaultVersion = .ok t ∧ t ≠ "" ∧ xmlToEnum m.cls t defaultVersion = .ok m := by
  unfold enumOk at h
  cases ht : enumToXml m defaultVersion with
  | error e => simp [ht] at h
  | ok t =>
    simp only [ht, decide_eq_true_eq] at h
    exact ⟨t, rfl, h, Verif.Props.Enums.C16_write_read m defaultVersion t ht⟩

/-! ### Text content -/

/-- Whether floats are read back as plain numbers, for a type. -/
def numOf (a : STy C) (b : Bool) : Prop :=
  (a = .numFloat → b = true) ∧ (a = .float ∨ a = .castFloat → b = false)

theorem scalar_rt (T : Tables C W R) {v : Val C} {a : STy C} {f : Fmt} {c : Conv} {b : Bool}
    (hv : hasS T v a = true) (hs : scalarOk a f c = true) (hb : numOf a b) :
    ∃ s, f.run v = .ok s ∧ s ≠ "" ∧ c.run (some s) = .ok (some (normVal T b v)) := by
  cases v with
  | str s =>
    cases a <;> simp [hasS] at hv <;> simp [scalarOk] at hs
    · obtain ⟨hf, hc⟩ := hs
      refine ⟨s, ?_, hv, ?_⟩
      · rcases hf with rfl | rfl <;> rfl
      · rcases hc with rfl | rfl <;> rfl
    · obtain ⟨hf, rfl⟩ := hs
      refine ⟨s, ?_, hv.1, ?_⟩
      · rcases hf with rfl | rfl <;> rfl
      · simp [Conv.run, hv.2, normVal]
    · obtain ⟨hf, rfl⟩ := hs
      refine ⟨s, ?_, hv.1.1, ?_⟩
      · rcases hf with rfl | rfl <;> rfl
      · simp [Conv.run, hv.1.2, normVal]
    · obtain ⟨hf, hc⟩ := hs
      refine ⟨s, ?_, hv.1, ?_⟩
      · rcases hf with rfl | rfl <;> rfl
      · rcases hc with rfl | rfl <;> rfl
  | bool x =>
    cases a <;> simp [hasS] at hv
    simp [scalarOk] at hs
    obtain ⟨rfl, rfl⟩ := hs
    cases x
    · exact ⟨"false", rfl, by decide, by simp [Conv.run, normVal]⟩
    · exact ⟨"true", rfl, by decide, by simp [Conv.run, normVal]⟩
  | num n =>
    cases n with
    | int i =>
      have hn : normVal T b (.num (.int i) : Val C) = .num (.int i) := by
        simp [normVal, canonNum]
      rw [hn]
      have hne : String.ofList (intStr i) ≠ "" := ofList_ne (by simp [intStr, decStr_ne_nil])
      have hft : ∀ f : Fmt, f = .str ∨ f = .number →
          f.run (.num (.int i) : Val C) = .ok (String.ofList (intStr i)) := by
        rintro f (rfl | rfl) <;> rfl
      cases a <;> simp [hasS] at hv <;> simp [scalarOk] at hs
      · obtain ⟨hf, hc⟩ := hs
        refine ⟨_, hft f hf, hne, ?_⟩
        rcases hc with (((((rfl | rfl) | rfl) | rfl) | rfl) | rfl) | rfl <;>
          simp [Conv.run, readNumber, readInteger, pyInt_intStr, pyInt0_intStr, numericalValue_int]
      · obtain ⟨hf, hc⟩ := hs
        refine ⟨_, hft f hf, hne, ?_⟩
        have hi : ¬ i < 0 := by omega
        rcases hc with ((((((rfl | rfl) | rfl) | rfl) | rfl) | rfl) | rfl) | rfl <;>
          simp [Conv.run, readNumber, readInteger, pyInt_intStr, pyInt0_intStr, numericalValue_int,
            positiveIntegerOfText, hi]
        omega
    | float x =>
      have hft : ∀ f : Fmt, f = .float ∨ f = .number →
          f.run (.num (.float x) : Val C) = (formatFloat x).map String.ofList := by
        rintro f (rfl | rfl) <;> rfl
      cases a <;> simp [hasS] at hv <;> simp [scalarOk] at hs
      · obtain ⟨hf, rfl⟩ := hs
        obtain ⟨t, h1, h2, h3, h4, h5⟩ := float_text x hv
        refine ⟨String.ofList t, by rw [hft f hf, h1]; rfl, ofList_ne h2, ?_⟩
        simp [Conv.run, h5, normVal, hb.2 (.inl rfl)]
      · obtain ⟨hf, rfl⟩ := hs
        obtain ⟨t, h1, h2, h3, h4, h5⟩ := float_text x hv.1
        refine ⟨String.ofList t, by rw [hft f hf, h1]; rfl, ofList_ne h2, ?_⟩
        simp [Conv.run, h3, normVal, hb.2 (.inr rfl), toFloat_canonNum x hv.1 hv.2]
      · obtain ⟨hf, hc⟩ := hs
        obtain ⟨t, h1, h2, h3, h4, h5⟩ := float_text x hv
        refine ⟨String.ofList t, by rw [hft f hf, h1]; rfl, ofList_ne h2, ?_⟩
        rcases hc with (rfl | rfl) | rfl <;> simp [Conv.run, h3, h4, normVal, hb.1 rfl]
  | numval n =>
    obtain ⟨n, fmt⟩ := n
    cases a <;> simp [hasS] at hv
    cases n with
    | float x => simp at hv
    | int i =>
      simp [scalarOk] at hs
      obtain ⟨rfl, rfl⟩ := hs
      have key : ∀ fm, (fm = .hexadecimal ∨ fm = .binary) → 0 ≤ i →
          ∃ s, Fmt.number.run (.numval ⟨.int i, fm⟩ : Val C) = .ok s ∧ s ≠ "" ∧
            Conv.numVal.run (some s) = .ok (some (normVal T b (.numval ⟨.int i, fm⟩ : Val C))) := by
        intro fm hfm hi
        obtain ⟨k, rfl⟩ := Int.eq_ofNat_of_zero_le hi
        obtain ⟨t, h1, h2⟩ := C19_notation_partial k fm (Or.inr hfm)
        refine ⟨String.ofList t, by simp [Fmt.run, h1, Except.map], ?_, ?_⟩
        · apply ofList_ne
          rintro rfl
          rcases hfm with rfl | rfl <;> simp [formatNumericalValue] at h1
        · rcases hfm with rfl | rfl <;> simp [Conv.run, h2, normVal]
      cases fmt <;> simp at hv
      · exact key _ (Or.inr rfl) hv
      · exact key _ (Or.inl rfl) hv
  | enum m =>
    cases a <;> simp [hasS] at hv <;> simp [scalarOk] at hs
    obtain ⟨rfl, rfl⟩ := hs
    obtain ⟨t, h1, h2, h3⟩ := enum_text hv.2
    refine ⟨t, h1, h2, ?_⟩
    rw [← hv.1]
    simp [Conv.run, h3, normVal]
  | limit n m => cases a <;> simp [hasS] at hv <;> simp [scalarOk] at hs
  | ref r => cases a <;> simp [hasS] at hv <;> simp [scalarOk] at hs
  | list vs => simp [hasS] at hv
  | obj c fs => cases a <;> simp [hasS] at hv <;> simp [scalarOk] at hs

end Verif.Codec
