import Verif.Num.Text
/-
Written numbers read back.
-/
namespace Verif.Num
open Verif.Py

/-! ### Digits -/

theorem dig_digitChar {b d : Nat} (hb : b ≤ 16) (hd : d < b) : dig b (Nat.digitChar d) = some d := by
  have : ∀ b, b ≤ 16 → ∀ d, d < b → dig b (Nat.digitChar d) = some d := by decide +kernel
  exact this b hb d hd

theorem digitChar_props {d : Nat} (hd : d < 16) :
    Nat.digitChar d ≠ '_' ∧ Nat.digitChar d ≠ '-' ∧ Nat.digitChar d ≠ '+' ∧
    isSpace (Nat.digitChar d) = false ∧ Nat.digitChar d ≠ 'x' ∧ Nat.digitChar d ≠ 'X' ∧
    Nat.digitChar d ≠ 'o' ∧ Nat.digitChar d ≠ 'O' ∧ Nat.digitChar d ≠ '.' := by
  have : ∀ d, d < 16 → (Nat.digitChar d ≠ '_' ∧ Nat.digitChar d ≠ '-' ∧ Nat.digitChar d ≠ '+' ∧
    isSpace (Nat.digitChar d) = false ∧ Nat.digitChar d ≠ 'x' ∧ Nat.digitChar d ≠ 'X' ∧
    Nat.digitChar d ≠ 'o' ∧ Nat.digitChar d ≠ 'O' ∧ Nat.digitChar d ≠ '.') := by decide +kernel
  exact this d hd

theorem digitChar_props10 {d : Nat} (hd : d < 10) :
    Nat.digitChar d ≠ 'e' ∧ Nat.digitChar d ≠ 'E' ∧ Nat.digitChar d ≠ 'b' ∧ Nat.digitChar d ≠ 'B' ∧
    lower (Nat.digitChar d) ≠ 'i' ∧ lower (Nat.digitChar d) ≠ 'n' := by
  have : ∀ d, d < 10 → (Nat.digitChar d ≠ 'e' ∧ Nat.digitChar d ≠ 'E' ∧ Nat.digitChar d ≠ 'b' ∧
    Nat.digitChar d ≠ 'B' ∧
    lower (Nat.digitChar d) ≠ 'i' ∧ lower (Nat.digitChar d) ≠ 'n') := by decide +kernel
  exact this d hd

theorem digitsU_cons_cons (b : Nat) (c c' : Char) (cs : List Char) (hc : c' ≠ '_') :
    digitsU b (c :: c' :: cs) =
      match dig b c with
      | none => none
      | some d => (digitsU b (c' :: cs)).map (d :: ·) := by
  conv => lhs; rw [digitsU.eq_def]
  cases hd : dig b c with
  | none => simp [hd]
  | some d =>
    simp only [hd]

theorem digitsU_map {b : Nat} (hb : b ≤ 16) : ∀ (l : List Nat), l ≠ [] → (∀ d ∈ l, d < b) →
    digitsU b (l.map Nat.digitChar) = some l
  | [], h, _ => absurd rfl h
  | [d], _, h => by
    simp [digitsU, dig_digitChar hb (h d (by simp))]
  | d :: d' :: l, _, h => by
    have hd' : d' < 16 := Nat.lt_of_lt_of_le (h d' (by simp)) hb
    have ih := digitsU_map hb (d' :: l) (by simp) (fun x hx => h x (List.mem_cons_of_mem _ hx))
    simp only [List.map_cons] at ih ⊢
    rw [digitsU_cons_cons _ _ _ _ (digitChar_props hd').1, dig_digitChar hb (h d (by simp)), ih]
    rfl

theorem digitsU_chars {b : Nat} : ∀ (s : List Char) (l : List Nat), digitsU b s = some l →
    ∀ c ∈ s, c = '_' ∨ ∃ d, dig b c = some d
  | [], _, h => by simp [digitsU] at h
  | [c], l, h => by
    intro x hx
    simp at hx
    subst hx
    simp only [digitsU] at h
    cases hd : dig b x with
    | none => rw [hd] at h; simp at h
    | some d => exact Or.inr ⟨d, rfl⟩
  | c :: c' :: cs, l, h => by
    intro x hx
    by_cases hu : c' = '_'
    · subst hu
      simp only [digitsU] at h
      cases hd : dig b c with
      | none => rw [hd] at h; simp at h
      | some d =>
        rw [hd] at h
        simp only [Option.map_eq_some_iff] at h
        obtain ⟨l', hl', -⟩ := h
        simp only [List.mem_cons] at hx
        rcases hx with rfl | rfl | hx
        · exact Or.inr ⟨d, hd⟩
        · exact Or.inl rfl
        · exact digitsU_chars cs l' hl' x hx
    · rw [digitsU_cons_cons _ _ _ _ hu] at h
      cases hd : dig b c with
      | none => rw [hd] at h; simp at h
      | some d =>
        rw [hd] at h
        simp only [Option.map_eq_some_iff] at h
        obtain ⟨l', hl', -⟩ := h
        rw [List.mem_cons] at hx
        rcases hx with rfl | hx
        · exact Or.inr ⟨d, hd⟩
        · exact digitsU_chars (c' :: cs) l' hl' x hx

theorem digitsU_none_of_mem {b : Nat} {s : List Char} {c : Char} (hc : c ∈ s) (h1 : c ≠ '_')
    (h2 : dig b c = none) : digitsU b s = none := by
  cases h : digitsU b s with
  | none => rfl
  | some l =>
    rcases digitsU_chars s l h c hc with he | ⟨d, hd⟩
    · exact absurd he h1
    · rw [h2] at hd; simp at hd

theorem digsB_lt {b : Nat} (hb : 2 ≤ b) (n : Nat) : ∀ d ∈ digsB b n, d < b := by
  induction n using Nat.strongRecOn with
  | ind n ih =>
    rw [digsB]
    split
    · intro d hd; simp at hd; omega
    · intro d hd
      simp only [List.mem_append, List.mem_singleton] at hd
      rcases hd with hd | hd
      · exact ih (n / b) (Nat.div_lt_self (by omega) (by omega)) d hd
      · subst hd; exact Nat.mod_lt _ (by omega)

theorem digsB_ne_nil (b n : Nat) : digsB b n ≠ [] := by
  rw [digsB]; split <;> simp

theorem ofDigs_digsB {b : Nat} (hb : 2 ≤ b) (n : Nat) : ofDigs b (digsB b n) = n := by
  induction n using Nat.strongRecOn with
  | ind n ih =>
    rw [digsB]
    split
    · simp [ofDigs]
    · rw [ofDigs_snoc, ih (n / b) (Nat.div_lt_self (by omega) (by omega))]
      exact Nat.div_add_mod n b

theorem digs_head_zero (n : Nat) (h : (digs n).head? = some 0) : n = 0 := by
  induction n using Nat.strongRecOn with
  | ind n ih =>
    rw [digs] at h
    split at h
    · simpa using h
    · have hne := digs_ne_nil (n / 10)
      have : (digs (n / 10)).head? = some 0 := by
        cases hd : digs (n / 10) with
        | nil => exact absurd hd hne
        | cons a l => rw [hd] at h; simpa using h
      have := ih (n / 10) (by omega) this
      omega

/-! ### White space and signs -/

theorem dropWhile_none {p : Char → Bool} {s : List Char} (h : ∀ c ∈ s, p c = false) :
    s.dropWhile p = s := by
  cases s with
  | nil => rfl
  | cons c cs => simp [List.dropWhile, h c (by simp)]

theorem strip_none {s : List Char} (h : ∀ c ∈ s, isSpace c = false) : strip s = s := by
  unfold strip
  rw [dropWhile_none h, dropWhile_none (by intro c hc; exact h c (by simpa using hc)),
    List.reverse_reverse]

theorem takeSign_none {s : List Char} (h1 : s.head? ≠ some '-') (h2 : s.head? ≠ some '+') :
    takeSign s = (false, s) := by
  unfold takeSign
  split
  · simp at h1
  · simp at h2
  · rfl

theorem takeSign_signStr (neg : Bool) {s : List Char} (h1 : s.head? ≠ some '-')
    (h2 : s.head? ≠ some '+') : takeSign (signStr neg ++ s) = (neg, s) := by
  cases neg
  · simpa [signStr] using takeSign_none h1 h2
  · simp [signStr, takeSign]

theorem withSign_natAbs (i : Int) : withSign (decide (i < 0)) i.natAbs = i := by
  unfold withSign
  by_cases h : i < 0
  · simp [h]; omega
  · simp [h]; omega

theorem signStr_space (neg : Bool) : ∀ c ∈ signStr neg, isSpace c = false := by
  cases neg
  · simp [signStr]
  · simp [signStr]; decide

theorem map_digit_space {l : List Nat} (h : ∀ d ∈ l, d < 16) :
    ∀ c ∈ l.map Nat.digitChar, isSpace c = false := by
  intro c hc
  simp only [List.mem_map] at hc
  obtain ⟨d, hd, rfl⟩ := hc
  exact (digitChar_props (h d hd)).2.2.2.1

theorem map_digit_head {l : List Nat} (h : ∀ d ∈ l, d < 16) :
    (l.map Nat.digitChar).head? ≠ some '-' ∧ (l.map Nat.digitChar).head? ≠ some '+' ∧
    (l.map Nat.digitChar).head? ≠ some '_' := by
  cases l with
  | nil => simp
  | cons d l =>
    have := digitChar_props (h d (by simp))
    simp [this.1, this.2.1, this.2.2.1]

theorem digs_lt16 (n : Nat) : ∀ d ∈ digs n, d < 16 := fun d hd =>
  Nat.lt_trans (digs_lt n d hd) (by decide)

/-! ### Integers -/

theorem pyInt_intStr (i : Int) : pyInt (intStr i) = some i := by
  have hs : strip (intStr i) = intStr i := by
    apply strip_none
    intro c hc
    simp only [intStr, List.mem_append] at hc
    rcases hc with hc | hc
    · exact signStr_space _ c hc
    · exact map_digit_space (digs_lt16 _) c hc
  have hh := map_digit_head (digs_lt16 i.natAbs)
  have ht : takeSign (intStr i) = (decide (i < 0), decStr i.natAbs) :=
    takeSign_signStr _ hh.1 hh.2.1
  unfold pyInt
  rw [hs, ht]
  simp only [decStr, digitsU_map (by decide) _ (digs_ne_nil _) (digs_lt _), Option.map_some,
    ofDigs_digs, withSign_natAbs]

/-- A text made of decimal digits is not a prefixed literal. -/
theorem int0Body_digits (l : List Nat) (hne : l ≠ []) (hl : ∀ d ∈ l, d < 10) :
    int0Body (l.map Nat.digitChar) =
      if l.head? = some 0 ∧ ofDigs 10 l ≠ 0 then none else some (ofDigs 10 l) := by
  have hd := digitsU_map (b := 10) (by decide) l hne hl
  unfold int0Body
  have key : ∀ (x : Char) (r : List Char), l.map Nat.digitChar = '0' :: x :: r →
      x ≠ 'x' ∧ x ≠ 'X' ∧ x ≠ 'b' ∧ x ≠ 'B' ∧ x ≠ 'o' ∧ x ≠ 'O' := by
    intro x r h
    match l, h, hl with
    | a :: d :: rest, h, hl =>
      simp only [List.map_cons, List.cons.injEq] at h
      have h10 := hl d (by simp)
      have p1 := digitChar_props (Nat.lt_trans h10 (by decide))
      have p2 := digitChar_props10 h10
      rw [← h.2.1]
      exact ⟨p1.2.2.2.2.1, p1.2.2.2.2.2.1, p2.2.2.1, p2.2.2.2.1, p1.2.2.2.2.2.2.1,
        p1.2.2.2.2.2.2.2.1⟩
    | [a], h, _ => simp at h
    | [], h, _ => simp at h
  split
  · rename_i heq; exact absurd rfl (key _ _ heq).1
  · rename_i heq; exact absurd rfl (key _ _ heq).2.1
  · rename_i heq; exact absurd rfl (key _ _ heq).2.2.1
  · rename_i heq; exact absurd rfl (key _ _ heq).2.2.2.1
  · rename_i heq; exact absurd rfl (key _ _ heq).2.2.2.2.1
  · rename_i heq; exact absurd rfl (key _ _ heq).2.2.2.2.2
  · rw [hd]

theorem pyInt0_intStr (i : Int) : pyInt0 (intStr i) = some i := by
  have hs : strip (intStr i) = intStr i := by
    apply strip_none
    intro c hc
    simp only [intStr, List.mem_append] at hc
    rcases hc with hc | hc
    · exact signStr_space _ c hc
    · exact map_digit_space (digs_lt16 _) c hc
  have hh := map_digit_head (digs_lt16 i.natAbs)
  have ht : takeSign (intStr i) = (decide (i < 0), decStr i.natAbs) :=
    takeSign_signStr _ hh.1 hh.2.1
  unfold pyInt0
  rw [hs, ht]
  simp only [decStr, int0Body_digits _ (digs_ne_nil _) (digs_lt _), ofDigs_digs]
  have : ¬ ((digs i.natAbs).head? = some 0 ∧ i.natAbs ≠ 0) := by
    rintro ⟨h1, h2⟩; exact h2 (digs_head_zero _ h1)
  rw [if_neg this]
  simp [withSign_natAbs]

theorem prefixed_map {b : Nat} (hb : b ≤ 16) (l : List Nat) (hne : l ≠ []) (hl : ∀ d ∈ l, d < b) :
    prefixed b (l.map Nat.digitChar) = some (ofDigs b l) := by
  have hd := digitsU_map hb l hne hl
  have hh := (map_digit_head (l := l) (fun d hd => Nat.lt_of_lt_of_le (hl d hd) hb)).2.2
  unfold prefixed
  split
  · rename_i heq; rw [heq] at hh; simp at hh
  · rw [hd]; rfl

theorem strip_radix (p : Char) (hp : isSpace p = false) (b : Nat) (hb : 2 ≤ b) (hb' : b ≤ 16)
    (i : Int) : strip ('0' :: p :: radixStr b i) = '0' :: p :: radixStr b i := by
  apply strip_none
  intro c hc
  simp only [List.mem_cons, radixStr, List.mem_append] at hc
  rcases hc with rfl | rfl | hc | hc
  · decide
  · exact hp
  · exact signStr_space _ c hc
  · exact map_digit_space (fun d hd => Nat.lt_of_lt_of_le (digsB_lt hb _ d hd) hb') c hc

theorem pyInt0_hex (n : Nat) : pyInt0 ('0' :: 'x' :: radixStr 16 n) = some n := by
  unfold pyInt0
  rw [strip_radix 'x' (by decide) 16 (by decide) (by decide)]
  have hneg : ¬ ((n : Int) < 0) := by omega
  simp only [takeSign, radixStr, hneg, decide_false, signStr, Bool.false_eq_true, if_false,
    List.nil_append, Int.natAbs_natCast, int0Body]
  have hp := prefixed_map (b := 16) (by decide) _ (digsB_ne_nil 16 n) (digsB_lt (by decide) n)
  rw [ofDigs_digsB (b := 16) (by decide)] at hp
  simp [withSign, hp]

theorem pyInt0_bin (n : Nat) : pyInt0 ('0' :: 'b' :: radixStr 2 n) = some n := by
  unfold pyInt0
  rw [strip_radix 'b' (by decide) 2 (by decide) (by decide)]
  have hneg : ¬ ((n : Int) < 0) := by omega
  simp only [takeSign, radixStr, hneg, decide_false, signStr, Bool.false_eq_true, if_false,
    List.nil_append, Int.natAbs_natCast, int0Body]
  have hp := prefixed_map (b := 2) (by decide) _ (digsB_ne_nil 2 n) (digsB_lt (by decide) n)
  rw [ofDigs_digsB (b := 2) (by decide)] at hp
  simp [withSign, hp]

/-- A minus sign after the prefix is no integer literal. -/
theorem pyInt0_neg_radix (p : Char) (hp : p = 'x' ∨ p = 'b') (r : List Char)
    (hr : ∀ c ∈ r, isSpace c = false) : pyInt0 ('0' :: p :: '-' :: r) = none := by
  have hs : strip ('0' :: p :: '-' :: r) = '0' :: p :: '-' :: r := by
    apply strip_none
    intro c hc
    simp only [List.mem_cons] at hc
    rcases hc with rfl | rfl | rfl | hc
    · decide
    · rcases hp with rfl | rfl <;> decide
    · decide
    · exact hr c hc
  unfold pyInt0
  rw [hs]
  rcases hp with rfl | rfl
  · have : digitsU 16 ('-' :: r) = none :=
      digitsU_none_of_mem (c := '-') (by simp) (by decide) (by decide)
    simp [takeSign, int0Body, prefixed, this]
  · have : digitsU 2 ('-' :: r) = none :=
      digitsU_none_of_mem (c := '-') (by simp) (by decide) (by decide)
    simp [takeSign, int0Body, prefixed, this]

/-! ### Decimal literals -/

theorem splitAt?_none {p : Char → Bool} : ∀ {s : List Char}, (∀ c ∈ s, p c = false) →
    splitAt? p s = (s, none)
  | [], _ => rfl
  | c :: cs, h => by
    have ih := splitAt?_none (p := p) (s := cs) (fun d hd => h d (by simp [hd]))
    simp [splitAt?, h c (by simp), ih]

theorem splitAt?_append {p : Char → Bool} {x : Char} (hx : p x = true) :
    ∀ {s r : List Char}, (∀ c ∈ s, p c = false) → splitAt? p (s ++ x :: r) = (s, some r)
  | [], r, _ => by simp [splitAt?, hx]
  | c :: cs, r, h => by
    have ih := splitAt?_append (p := p) hx (s := cs) (r := r) (fun d hd => h d (by simp [hd]))
    simp [splitAt?, h c (by simp), ih]

theorem optDigits_map (l : List Nat) (hl : ∀ d ∈ l, d < 10) :
    optDigits (l.map Nat.digitChar) = some l := by
  unfold optDigits
  cases l with
  | nil => rfl
  | cons d ds =>
    rw [if_neg (by simp)]
    exact digitsU_map (by decide) _ (by simp) hl

theorem no_e {l : List Nat} (hl : ∀ d ∈ l, d < 10) :
    ∀ c ∈ l.map Nat.digitChar, (decide (c = 'e') || decide (c = 'E')) = false := by
  intro c hc
  simp only [List.mem_map] at hc
  obtain ⟨d, hd, rfl⟩ := hc
  have := digitChar_props10 (hl d hd)
  simp [this.1, this.2.1]

theorem no_dot {l : List Nat} (hl : ∀ d ∈ l, d < 10) :
    ∀ c ∈ l.map Nat.digitChar, decide (c = '.') = false := by
  intro c hc
  simp only [List.mem_map] at hc
  obtain ⟨d, hd, rfl⟩ := hc
  have := digitChar_props (Nat.lt_trans (hl d hd) (by decide : 10 < 16))
  simp [this.2.2.2.2.2.2.2.2]

/-- `digits.digits` denotes the digits with the point moved. -/
theorem parseDecimal_point (a b : List Nat) (ha : ∀ d ∈ a, d < 10) (hb : ∀ d ∈ b, d < 10)
    (hne : a ++ b ≠ []) :
    parseDecimal (a.map Nat.digitChar ++ '.' :: b.map Nat.digitChar) =
      some (ofDigs 10 (a ++ b), -(b.length : Int)) := by
  unfold parseDecimal
  have he : ∀ c ∈ a.map Nat.digitChar ++ '.' :: b.map Nat.digitChar,
      (decide (c = 'e') || decide (c = 'E')) = false := by
    intro c hc
    simp only [List.mem_append, List.mem_cons] at hc
    rcases hc with hc | rfl | hc
    · exact no_e ha c hc
    · decide
    · exact no_e hb c hc
  rw [splitAt?_none he]
  simp only
  rw [splitAt?_append (x := '.') (by simp) (no_dot ha)]
  simp [optDigits_map a ha, optDigits_map b hb, hne]

/-- `d.dddE-x` denotes the digits with the exponent. -/
theorem parseDecimal_sci (d : Nat) (b : List Nat) (x : Nat) (hd : d < 10)
    (hb : ∀ d ∈ b, d < 10) :
    parseDecimal (Nat.digitChar d :: ((if b = [] then [] else '.' :: b.map Nat.digitChar) ++
      'E' :: '-' :: decStr x)) =
      some (ofDigs 10 (d :: b), -(x : Int) - b.length) := by
  have hpe : parseExp ('-' :: decStr x) = some (-(x : Int)) := by
    simp only [parseExp, takeSign, decStr, digitsU_map (by decide : 10 ≤ 16) _ (digs_ne_nil x) (digs_lt x),
      Option.map_some, ofDigs_digs]
    simp [withSign]
  have hd' : ∀ e ∈ [d], e < 10 := by simpa using hd
  unfold parseDecimal
  by_cases h : b = []
  · subst h
    have hs := splitAt?_append (p := fun c => decide (c = 'e') || decide (c = 'E')) (x := 'E')
      (r := '-' :: decStr x) (by decide) (no_e hd')
    simp only [List.map_cons, List.map_nil, List.cons_append, List.nil_append] at hs
    simp only [if_true, List.nil_append, hs]
    have hs2 := splitAt?_none (p := fun c => decide (c = '.')) (no_dot hd')
    simp only [List.map_cons, List.map_nil] at hs2
    have ho := optDigits_map [d] hd'
    simp only [List.map_cons, List.map_nil] at ho
    simp only [hs2, ho, hpe]
    simp [optDigits]
  · have he : ∀ c ∈ Nat.digitChar d :: '.' :: b.map Nat.digitChar,
        (decide (c = 'e') || decide (c = 'E')) = false := by
      intro c hc
      simp only [List.mem_cons] at hc
      rcases hc with rfl | rfl | hc
      · exact no_e hd' _ (by simp)
      · decide
      · exact no_e hb c hc
    have hs := splitAt?_append (p := fun c => decide (c = 'e') || decide (c = 'E')) (x := 'E')
      (r := '-' :: decStr x) (by decide) he
    simp only [List.cons_append] at hs
    simp only [h, if_false, List.cons_append, hs]
    have hs2 := splitAt?_append (p := fun c => decide (c = '.')) (x := '.')
      (r := b.map Nat.digitChar) (by decide) (no_dot hd')
    simp only [List.map_cons, List.map_nil, List.cons_append, List.nil_append] at hs2
    have ho := optDigits_map [d] hd'
    simp only [List.map_cons, List.map_nil] at ho
    simp only [hs2, ho, hpe, Option.getD_some, optDigits_map b hb]
    simp

theorem ofDigs_zeros (k : Nat) (l : List Nat) : ofDigs 10 (List.replicate k 0 ++ l) = ofDigs 10 l := by
  induction k with
  | zero => simp
  | succ k ih =>
    rw [List.replicate_succ, List.cons_append]
    have : ∀ m : List Nat, ofDigs 10 (0 :: m) = ofDigs 10 m := by intro m; simp [ofDigs]
    rw [this, ih]

/-- The unsigned text of a non-integral decimal. -/
theorem decimalStr_eq_sign (neg : Bool) (c : Nat) (e : Int) :
    decimalStr neg c e = signStr neg ++ decimalStr false c e := by
  unfold decimalStr
  simp only [signStr, Bool.false_eq_true, if_false]
  split
  · simp
  · split
    · split <;> simp
    · simp

/-- The text starts with a digit, has no white space, and is no plain digit string. -/
structure NonIntText (s : List Char) : Prop where
  head : ∃ d t, d < 10 ∧ s = Nat.digitChar d :: t
  space : ∀ c ∈ s, isSpace c = false
  mark : '.' ∈ s ∨ 'E' ∈ s

theorem decimalStr_spec (c : Nat) (e : Int) (he : e < 0) :
    parseDecimal (decimalStr false c e) = some (c, e) ∧ NonIntText (decimalStr false c e) := by
  have hlen : (decStr c).length = (digs c).length := by simp [decStr]
  have hpos : 0 < (digs c).length := List.length_pos_iff.2 (digs_ne_nil c)
  unfold decimalStr
  rw [if_neg (by omega)]
  by_cases hadj : e + ((decStr c).length : Int) - 1 ≥ -6
  · simp only [hadj, if_true]
    by_cases hpt : ((decStr c).length : Int) + e > 0
    · simp only [hpt, if_true, signStr, Bool.false_eq_true, if_false, List.nil_append]
      generalize hk : (((decStr c).length : Int) + e).toNat = k
      have hk1 : 0 < k := by omega
      have hk2 : k < (digs c).length := by omega
      have htake : (decStr c).take k = ((digs c).take k).map Nat.digitChar := by
        simp [decStr, List.map_take]
      have hdrop : (decStr c).drop k = ((digs c).drop k).map Nat.digitChar := by
        simp [decStr, List.map_drop]
      rw [htake, hdrop]
      have ha : ∀ d ∈ (digs c).take k, d < 10 := fun d hd => digs_lt c d (List.mem_of_mem_take hd)
      have hb : ∀ d ∈ (digs c).drop k, d < 10 := fun d hd => digs_lt c d (List.mem_of_mem_drop hd)
      constructor
      · rw [parseDecimal_point _ _ ha hb (by rw [List.take_append_drop]; exact digs_ne_nil c)]
        rw [List.take_append_drop, ofDigs_digs, List.length_drop]
        congr 2
        omega
      · refine ⟨?_, ?_, Or.inl (by simp)⟩
        · cases h : digs c with
          | nil => exact absurd h (digs_ne_nil c)
          | cons d ds =>
            obtain ⟨k', rfl⟩ : ∃ k', k = k' + 1 := ⟨k - 1, by omega⟩
            exact ⟨d, _, digs_lt c d (by rw [h]; simp), by simp; rfl⟩
        · intro x hx
          simp only [List.mem_append, List.mem_cons] at hx
          rcases hx with hx | rfl | hx
          · exact map_digit_space (fun d hd => Nat.lt_trans (ha d hd) (by decide)) x hx
          · decide
          · exact map_digit_space (fun d hd => Nat.lt_trans (hb d hd) (by decide)) x hx
    · simp only [hpt, if_false, signStr, Bool.false_eq_true, List.nil_append]
      generalize hk : (-(((decStr c).length : Int) + e)).toNat = k
      have hrep : (List.replicate k '0' ++ decStr c) = (List.replicate k 0 ++ digs c).map Nat.digitChar := by
        simp [decStr, Nat.digitChar]
      have hb : ∀ d ∈ List.replicate k 0 ++ digs c, d < 10 := by
        intro d hd
        simp only [List.mem_append, List.mem_replicate] at hd
        rcases hd with hd | hd
        · omega
        · exact digs_lt c d hd
      have ha : ∀ d ∈ [0], d < 10 := by simp
      have h0 : ('0' : Char) :: '.' :: (List.replicate k '0' ++ decStr c) =
          [0].map Nat.digitChar ++ '.' :: (List.replicate k 0 ++ digs c).map Nat.digitChar := by
        rw [hrep]; rfl
      constructor
      · rw [h0, parseDecimal_point _ _ ha hb (by simp)]
        have : ofDigs 10 ([0] ++ (List.replicate k 0 ++ digs c)) = c := by
          have := ofDigs_zeros 1 (List.replicate k 0 ++ digs c)
          simp only [List.replicate_one] at this
          rw [this, ofDigs_zeros, ofDigs_digs]
        rw [this]
        congr 2
        simp
        omega
      · refine ⟨⟨0, _, by decide, rfl⟩, ?_, Or.inl (by simp)⟩
        rw [h0]
        intro x hx
        simp only [List.mem_append, List.mem_cons] at hx
        rcases hx with hx | rfl | hx
        · exact map_digit_space (fun d hd => Nat.lt_trans (ha d hd) (by decide)) x hx
        · decide
        · exact map_digit_space (fun d hd => Nat.lt_trans (hb d hd) (by decide)) x hx
  · simp only [hadj, if_false, signStr, Bool.false_eq_true, List.nil_append]
    cases h : digs c with
    | nil => exact absurd h (digs_ne_nil c)
    | cons d ds =>
      have hd10 : d < 10 := digs_lt c d (by rw [h]; simp)
      have hds : ∀ x ∈ ds, x < 10 := fun x hx => digs_lt c x (by rw [h]; simp [hx])
      have hdec : decStr c = Nat.digitChar d :: ds.map Nat.digitChar := by simp [decStr, h]
      generalize hx : (-(e + ((decStr c).length : Int) - 1)).toNat = x
      have hform : (decStr c).take 1 ++ (if (decStr c).length > 1 then '.' :: (decStr c).drop 1 else []) ++
          'E' :: '-' :: decStr x =
          Nat.digitChar d :: ((if ds = [] then [] else '.' :: ds.map Nat.digitChar) ++
            'E' :: '-' :: decStr x) := by
        rw [hdec]
        cases ds with
        | nil => simp
        | cons a l => simp
      rw [hform]
      constructor
      · rw [parseDecimal_sci d ds x hd10 hds]
        rw [← h, ofDigs_digs]
        congr 2
        rw [hdec] at hx hadj
        simp at hx hadj
        omega
      · refine ⟨⟨d, _, hd10, rfl⟩, ?_, Or.inr (by simp)⟩
        intro y hy
        simp only [List.mem_cons, List.mem_append] at hy
        rcases hy with rfl | hy | rfl | rfl | hy
        · exact (digitChar_props (Nat.lt_trans hd10 (by decide))).2.2.2.1
        · split at hy
          · simp at hy
          · simp only [List.mem_cons] at hy
            rcases hy with rfl | hy
            · decide
            · exact map_digit_space (fun d hd => Nat.lt_trans (hds d hd) (by decide)) y hy
        · decide
        · decide
        · exact map_digit_space (digs_lt16 x) y hy

theorem nonInt_sign (neg : Bool) {s : List Char} (h : NonIntText s) :
    strip (signStr neg ++ s) = signStr neg ++ s ∧ takeSign (signStr neg ++ s) = (neg, s) := by
  constructor
  · apply strip_none
    intro c hc
    simp only [List.mem_append] at hc
    rcases hc with hc | hc
    · exact signStr_space _ c hc
    · exact h.space c hc
  · obtain ⟨d, t, hd, rfl⟩ := h.head
    have p := digitChar_props (Nat.lt_trans hd (by decide : 10 < 16))
    exact takeSign_signStr neg (by simp [p.2.1]) (by simp [p.2.2.1])

theorem pyInt_nonInt (neg : Bool) {s : List Char} (h : NonIntText s) :
    pyInt (signStr neg ++ s) = none := by
  obtain ⟨h1, h2⟩ := nonInt_sign neg h
  unfold pyInt
  rw [h1, h2]
  have : digitsU 10 s = none := by
    rcases h.mark with hm | hm
    · exact digitsU_none_of_mem hm (by decide) (by decide)
    · exact digitsU_none_of_mem hm (by decide) (by decide)
  simp [this]

theorem pyFloat_nonInt (neg : Bool) {s : List Char} (h : NonIntText s) {c : Nat} {e : Int}
    (hp : parseDecimal s = some (c, e)) :
    pyFloat (signStr neg ++ s) = some (.fin neg (canon c e).1 (canon c e).2) := by
  obtain ⟨h1, h2⟩ := nonInt_sign neg h
  unfold pyFloat
  rw [h1, h2]
  obtain ⟨d, t, hd, rfl⟩ := h.head
  have p := digitChar_props10 hd
  have n1 : (Nat.digitChar d :: t).map lower ≠ "inf".toList := by
    intro he
    have : lower (Nat.digitChar d) = 'i' := by
      have := congrArg List.head? he
      simpa using this
    exact p.2.2.2.2.1 this
  have n2 : (Nat.digitChar d :: t).map lower ≠ "infinity".toList := by
    intro he
    have : lower (Nat.digitChar d) = 'i' := by
      have := congrArg List.head? he
      simpa using this
    exact p.2.2.2.2.1 this
  have n3 : (Nat.digitChar d :: t).map lower ≠ "nan".toList := by
    intro he
    have : lower (Nat.digitChar d) = 'n' := by
      have := congrArg List.head? he
      simpa using this
    exact p.2.2.2.2.2 this
  simp only [n1, n2, n3, or_self, if_false, hp]

/-- Reading the text of a non-integral float gives the float back. -/
theorem readNumber_decimalStr (neg : Bool) (c : Nat) (e : Int) (he : e < 0)
    (hcan : canon c e = (c, e)) :
    readNumber (decimalStr neg c e) = .ok (.float (.fin neg c e)) ∧
    pyFloat (decimalStr neg c e) = some (.fin neg c e) := by
  obtain ⟨h1, h2⟩ := decimalStr_spec c e he
  have hf := pyFloat_nonInt neg h2 h1
  rw [hcan] at hf
  rw [decimalStr_eq_sign]
  refine ⟨?_, hf⟩
  unfold readNumber
  rw [pyInt_nonInt neg h2, hf]

end Verif.Num
