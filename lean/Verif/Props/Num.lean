import Verif.Num.TextLemmas
import Verif.Num.Limits
/-
C13, C14, C19, C20: limits, value tables, numbers as text.
-/
set_option linter.unusedSimpArgs false
namespace Verif.Props.Num
open Verif Verif.Py Verif.Num

/-! ### C13 -/

/-- The extended number line, for numbers that are not NaN. -/
inductive Leq : ENum → ENum → Prop
  | fin {a b : Rat} : a ≤ b → Leq (.fin a) (.fin b)
  | bot {x : ENum} : x ≠ .nan → Leq .negInf x
  | top {x : ENum} : x ≠ .nan → Leq x .posInf

/-- Strictly between: below and different. -/
def Less (a b : ENum) : Prop := Leq a b ∧ a ≠ b

/-- The lower bound is respected. -/
def AboveLower (t : IntervalType) (lo v : ENum) : Prop :=
  match t with
  | .closed => Leq lo v
  | .open => Less lo v

/-- The upper bound is respected. -/
def BelowUpper (t : IntervalType) (hi v : ENum) : Prop :=
  match t with
  | .closed => Leq v hi
  | .open => Less v hi

theorem le_iff (a b : ENum) : a.le b = true ↔ Leq a b := by
  constructor
  · intro h
    cases a <;> cases b <;> simp [ENum.le] at h
    · exact .fin h
    · exact .top (by simp)
    · exact .top (by simp)
    · exact .bot (by simp)
    · exact .top (by simp)
    · exact .bot (by simp)
  · intro h
    cases h with
    | fin h => simpa [ENum.le] using h
    | bot h => cases b <;> simp_all [ENum.le]
    | top h => cases a <;> simp_all [ENum.le]

theorem lt_iff (a b : ENum) : a.lt b = true ↔ Less a b := by
  unfold Less
  rw [← le_iff]
  cases a <;> cases b <;> simp [ENum.lt, ENum.le]
  rename_i p q
  rw [Rat.lt_iff_le_and_ne]

/-- Comparison is total away from NaN. -/
theorem not_lt_iff (a b : ENum) (ha : a ≠ .nan) (hb : b ≠ .nan) : a.lt b = false ↔ Leq b a := by
  rw [← le_iff]
  cases a <;> cases b <;> simp_all [ENum.lt, ENum.le, Rat.not_lt]

theorem not_le_iff (a b : ENum) (ha : a ≠ .nan) (hb : b ≠ .nan) : a.le b = false ↔ Less b a := by
  rw [← lt_iff]
  cases a <;> cases b <;> simp_all [ENum.lt, ENum.le, Rat.not_le]

/-- C13: with both limits present and no NaN involved, `check_value` never raises and answers
exactly whether the value lies in the interval. -/
theorem C13_interval_partial (l : Limits) (lo hi v : ENum) (hlo : l.lower = some lo)
    (hhi : l.upper = some hi) (h1 : lo ≠ .nan) (h2 : hi ≠ .nan) (hv : v ≠ .nan) :
    ∃ b, checkValue l v = .ok b ∧
      (b = true ↔ AboveLower l.lowerType lo v ∧ BelowUpper l.upperType hi v) := by
  have hL : ∃ r, lowerRejects l v = .ok r ∧ (r = false ↔ AboveLower l.lowerType lo v) := by
    unfold lowerRejects
    rw [hlo]
    cases ht : l.lowerType with
    | closed => exact ⟨_, rfl, by simpa [AboveLower] using not_lt_iff v lo hv h1⟩
    | «open» => exact ⟨_, rfl, by simpa [AboveLower] using not_le_iff v lo hv h1⟩
  have hU : ∃ r, upperRejects l v = .ok r ∧ (r = false ↔ BelowUpper l.upperType hi v) := by
    unfold upperRejects
    rw [hhi]
    cases ht : l.upperType with
    | closed => exact ⟨_, rfl, by simpa [BelowUpper] using not_lt_iff hi v h2 hv⟩
    | «open» => exact ⟨_, rfl, by simpa [BelowUpper] using not_le_iff hi v h2 hv⟩
  obtain ⟨r, hr, hr'⟩ := hL
  obtain ⟨s, hs, hs'⟩ := hU
  unfold checkValue
  rw [hr, hs, ← hr', ← hs']
  cases r <;> cases s <;> simp

example : checkValue ⟨some (.fin 0), some (.fin 255), .closed, .open⟩ (.fin 255) = .ok false ∧
    checkValue ⟨some (.fin 0), some (.fin 255), .closed, .open⟩ (.fin (1/2)) = .ok true ∧
    checkValue ⟨some .negInf, some (.fin 5), .open, .closed⟩ (.fin 5) = .ok true := by
  decide +kernel

/-- Finding for C13: NaN passes every check (all comparisons with it are false). -/
theorem C13_nan_accepted (lo hi : ENum) (lt ut : IntervalType) :
    checkValue ⟨some lo, some hi, lt, ut⟩ .nan = .ok true := by
  cases lo <;> cases hi <;> cases lt <;> cases ut <;> rfl

/-- NaN as a limit does not restrict either. -/
theorem C13_nan_limit_ignored (hi v : ENum) (lt ut : IntervalType) :
    checkValue ⟨some .nan, some hi, lt, ut⟩ v = checkValue ⟨some .negInf, some hi, .closed, ut⟩ v := by
  cases v <;> cases hi <;> cases lt <;> cases ut <;> rfl

/-- Finding for C13: an absent limit is not "unbounded": without a lower limit every check
raises TypeError; without an upper one every check that passes the lower limit does. -/
theorem C13_absent_limit_raises (l : Limits) (v : ENum) :
    (l.lower = none → checkValue l v = .error .typeError) ∧
    (l.upper = none → lowerRejects l v = .ok false → checkValue l v = .error .typeError) := by
  constructor
  · intro h; simp [checkValue, lowerRejects, h]
  · intro h h'; simp [checkValue, h', upperRejects, h]

example : checkValue ⟨some (.fin 0), none, .closed, .closed⟩ (.fin 3) = .error .typeError := by
  decide +kernel

/-! ### C14 -/

/-- The scale the i-th entry describes, by its shape. -/
inductive Describes (i : Nat) : Entry → Cell → Cell → Cell → Prop
  | text (s : String) : Describes i (.text s) (.num (.int i)) (.num (.int i)) (.text s)
  | pair (n v : Cell) : Describes i (.tuple [n, v]) n n v
  | triple (a b v : Cell) : Describes i (.tuple [a, b, v]) a b v

/-- An entry that is a tuple of some other length. -/
def BadTuple : Entry → Prop
  | .tuple cells => cells.length ≠ 2 ∧ cells.length ≠ 3
  | _ => False

def Malformed (e : Entry) : Prop := BadTuple e ∨ ∃ t, e = .other t

theorem entryLimits_ok_iff (i : Nat) (e : Entry) (lo hi v : Cell) :
    entryLimits i e = .ok (lo, hi, v) ↔ Describes i e lo hi v := by
  constructor
  · intro h
    unfold entryLimits at h
    split at h <;> simp at h
    · obtain ⟨rfl, rfl, rfl⟩ := h; exact .text _
    · obtain ⟨rfl, rfl, rfl⟩ := h; exact .pair _ _
    · obtain ⟨rfl, rfl, rfl⟩ := h; exact .triple _ _ _
  · intro h; cases h <;> rfl

theorem entryLimits_error (i : Nat) (e : Entry) (err : PyErr) (h : entryLimits i e = .error err) :
    (err = .valueError ∧ BadTuple e) ∨ (err = .typeError ∧ ∃ t, e = .other t) := by
  unfold entryLimits at h
  split at h <;> simp at h
  · rename_i cells h1 h2
    left
    refine ⟨h.symm, ?_, ?_⟩
    · intro hl
      match cells, hl with
      | [a, b], _ => exact h1 a b rfl
    · intro hl
      match cells, hl with
      | [a, b, c], _ => exact h2 a b c rfl
  · right; exact ⟨h.symm, _, rfl⟩

/-- What a correct scale for position `i` is. -/
def CorrectScale (autoLabel : Bool) (i : Nat) (e : Entry) (s : TableScale) : Prop :=
  Describes i e s.lower s.upper s.value ∧ s.lowerType = .closed ∧ s.upperType = .closed ∧
  s.label = if autoLabel then (match s.value with | .text t => some t | _ => none) else none

theorem entryScale_ok (al : Bool) (i : Nat) (e : Entry) (s : TableScale)
    (h : entryScale al i e = .ok s) : CorrectScale al i e s := by
  unfold entryScale at h
  cases he : entryLimits i e with
  | error err => rw [he] at h; simp at h
  | ok r =>
    obtain ⟨lo, hi, v⟩ := r
    rw [he] at h
    simp only [Except.ok.injEq] at h
    subst h
    refine ⟨(entryLimits_ok_iff i e lo hi v).1 he, rfl, rfl, ?_⟩
    cases v <;> cases al <;> rfl

theorem entryScale_error (al : Bool) (i : Nat) (e : Entry) (err : PyErr)
    (h : entryScale al i e = .error err) :
    (err = .valueError ∧ BadTuple e) ∨ (err = .typeError ∧ ∃ t, e = .other t) := by
  unfold entryScale at h
  cases he : entryLimits i e with
  | error e' =>
    rw [he] at h
    simp only [Except.error.injEq] at h
    subst h
    exact entryLimits_error i e _ he
  | ok r => rw [he] at h; simp at h

theorem entryScale_malformed (al : Bool) (i : Nat) (e : Entry) (h : Malformed e) :
    ∃ err, entryScale al i e = .error err := by
  cases hs : entryScale al i e with
  | error err => exact ⟨err, rfl⟩
  | ok s =>
    have hc := (entryScale_ok al i e s hs).1
    obtain ⟨v, lo, hi, lb, lt, ut⟩ := s
    simp only at hc
    rcases h with h | ⟨t, rfl⟩
    · cases hc <;> simp [BadTuple] at h
    · cases hc

theorem tableLoop_ok (al : Bool) (es : List Entry) (i : Nat) (ss : List TableScale)
    (h : tableLoop al i es = .ok ss) :
    ss.length = es.length ∧
      ∀ k e s, es[k]? = some e → ss[k]? = some s → CorrectScale al (i + k) e s := by
  induction es generalizing i ss with
  | nil =>
    simp [tableLoop] at h
    subst h
    simp
  | cons e es ih =>
    simp only [tableLoop] at h
    cases hs : entryScale al i e with
    | error err => rw [hs] at h; simp at h
    | ok s =>
      rw [hs] at h
      simp only at h
      cases hr : tableLoop al (i + 1) es with
      | error err => rw [hr] at h; simp at h
      | ok rest =>
        rw [hr] at h
        simp only [Except.ok.injEq] at h
        subst h
        obtain ⟨h1, h2⟩ := ih (i + 1) rest hr
        refine ⟨by simp [h1], ?_⟩
        intro k e' s' he' hs'
        cases k with
        | zero =>
          simp at he' hs'
          subst he'; subst hs'
          exact entryScale_ok al i e s hs
        | succ k =>
          simp at he' hs'
          have := h2 k e' s' he' hs'
          have hk : i + (k + 1) = i + 1 + k := by omega
          rw [hk]; exact this

theorem tableLoop_error (al : Bool) (es : List Entry) (i : Nat) (err : PyErr)
    (h : tableLoop al i es = .error err) :
    ∃ (k : Nat) (e : Entry), es[k]? = some e ∧ (∀ (j : Nat) (e' : Entry), j < k → es[j]? = some e' → ¬ Malformed e') ∧
      ((err = .valueError ∧ BadTuple e) ∨ (err = .typeError ∧ ∃ t, e = .other t)) := by
  induction es generalizing i with
  | nil => simp [tableLoop] at h
  | cons e es ih =>
    simp only [tableLoop] at h
    cases hs : entryScale al i e with
    | error err' =>
      rw [hs] at h
      simp only [Except.error.injEq] at h
      subst h
      exact ⟨0, e, rfl, by intro j e' hj; omega, entryScale_error al i e _ hs⟩
    | ok s =>
      rw [hs] at h
      simp only at h
      cases hr : tableLoop al (i + 1) es with
      | ok rest => rw [hr] at h; simp at h
      | error err' =>
        rw [hr] at h
        simp only [Except.error.injEq] at h
        subst h
        obtain ⟨k, e', h1, h2, h3⟩ := ih (i + 1) hr
        refine ⟨k + 1, e', by simpa using h1, ?_, h3⟩
        intro j e'' hj he''
        cases j with
        | zero =>
          simp at he''
          subst he''
          intro hm
          obtain ⟨err, herr⟩ := entryScale_malformed al i e hm
          rw [hs] at herr
          simp at herr
        | succ j => exact h2 j e'' (by omega) (by simpa using he'')

/-- C14: a table that is built has one scale per entry, in order; the scale at position `i`
has the limits, text and label the entry at position `i` describes, both limits closed. -/
theorem C14_scales (es : List Entry) (d : DefaultArg) (al : Bool) (t : ValueTable)
    (h : makeValueTable es d al = .ok t) :
    t.scales.length = es.length ∧
      ∀ i e s, es[i]? = some e → t.scales[i]? = some s → CorrectScale al i e s := by
  unfold makeValueTable at h
  cases hr : tableLoop al 0 es with
  | error err => rw [hr] at h; simp at h
  | ok ss =>
    rw [hr] at h
    simp only [Except.ok.injEq] at h
    subst h
    have := tableLoop_ok al es 0 ss hr
    simpa using this

/-- C14: a table is built exactly when no entry is malformed; otherwise the first malformed
entry decides the exception (wrong tuple length: ValueError; neither string nor tuple:
TypeError) and nothing is returned. -/
theorem C14_rejects (es : List Entry) (d : DefaultArg) (al : Bool) :
    (∃ t, makeValueTable es d al = .ok t) ∧ (∀ e ∈ es, ¬ Malformed e) ∨
    ∃ (k : Nat) (e : Entry) (err : PyErr), makeValueTable es d al = .error err ∧ es[k]? = some e ∧ Malformed e ∧
      (∀ (j : Nat) (e' : Entry), j < k → es[j]? = some e' → ¬ Malformed e') ∧
      (err = .valueError ↔ BadTuple e) ∧ (err = .typeError ↔ ∃ t, e = .other t) := by
  unfold makeValueTable
  cases hr : tableLoop al 0 es with
  | ok ss =>
    left
    refine ⟨⟨_, rfl⟩, ?_⟩
    intro e he hm
    obtain ⟨k, hk, hke⟩ := List.mem_iff_getElem.1 he
    obtain ⟨h1, h2⟩ := tableLoop_ok al es 0 ss hr
    have hk' : k < ss.length := by omega
    have := (h2 k e ss[k] (by simp [hk, hke]) (by simp [hk'])).1
    generalize ss[k] = s at this
    obtain ⟨v, lo, hi, lb, lt, ut⟩ := s
    simp only at this
    rcases hm with hm | ⟨t, rfl⟩
    · cases this <;> simp [BadTuple] at hm
    · cases this
  | error err =>
    right
    obtain ⟨k, e, h1, h2, h3⟩ := tableLoop_error al es 0 err hr
    refine ⟨k, e, err, rfl, h1, ?_, h2, ?_, ?_⟩
    · rcases h3 with ⟨-, h⟩ | ⟨-, h⟩
      · exact Or.inl h
      · exact Or.inr h
    · rcases h3 with ⟨rfl, h⟩ | ⟨rfl, t, rfl⟩ <;> simp_all [BadTuple]
    · rcases h3 with ⟨rfl, h⟩ | ⟨rfl, t, rfl⟩
      · simp
        rintro t rfl
        simp [BadTuple] at h
      · simp

example : makeValueTable [.text "Off", .tuple [.num (.int 7), .text "On"],
    .tuple [.num (.int 8), .num (.int 9), .text "Error"]] .none true =
  .ok ⟨[{ value := .text "Off", lower := .num (.int 0), upper := .num (.int 0), label := some "Off" },
        { value := .text "On", lower := .num (.int 7), upper := .num (.int 7), label := some "On" },
        { value := .text "Error", lower := .num (.int 8), upper := .num (.int 9),
          label := some "Error" }], none⟩ := by decide

example : makeValueTable [.text "Off", .tuple [.num (.int 7)], .other "list"] .none true =
    .error .valueError := by decide

/-- A list of plain strings numbers them from zero. -/
theorem C14_strings (names : List String) (d : DefaultArg) :
    ∃ t, makeValueTable (names.map .text) d true = .ok t ∧ t.scales.length = names.length ∧
      ∀ (i : Nat) (n : String), names[i]? = some n → ∃ s : TableScale, t.scales[i]? = some s ∧ s.value = .text n ∧
        s.label = some n ∧ s.lower = .num (.int i) ∧ s.upper = .num (.int i) := by
  rcases C14_rejects (names.map .text) d true with ⟨⟨t, ht⟩, -⟩ | ⟨k, e, err, -, he, hm, -⟩
  · obtain ⟨h1, h2⟩ := C14_scales _ _ _ _ ht
    simp at h1
    refine ⟨t, ht, h1, ?_⟩
    intro i n hn
    have hi : i < names.length := by
      rcases Nat.lt_or_ge i names.length with h | h
      · exact h
      · simp [List.getElem?_eq_none h] at hn
    have hi' : i < t.scales.length := by omega
    refine ⟨t.scales[i], by simp [hi'], ?_⟩
    obtain ⟨h3, -, -, h4⟩ := h2 i (.text n) t.scales[i] (by simp [hn]) (by simp [hi'])
    generalize t.scales[i] = s at h3 h4
    obtain ⟨v, lo, hi, lb, lt, ut⟩ := s
    simp only at h3 h4
    cases h3
    exact ⟨rfl, by simpa using h4, rfl, rfl⟩
  · rw [List.getElem?_map] at he
    simp only [Option.map_eq_some_iff] at he
    obtain ⟨n, -, rfl⟩ := he
    rcases hm with hm | ⟨t, ht⟩
    · simp [BadTuple] at hm
    · simp at ht

/-! ### C40, texts -/

/-- C40: of the texts of integers (in any notation `read_integer` knows) a positive-integer value takes those that are
not negative, and has their value; negative ones raise ValueError and other texts TypeError. -/
theorem C40_texts (s : List Char) :
    (∀ n : Nat, positiveIntegerOfText s = .ok n ↔ readInteger s = .ok (n : Int)) ∧
    (positiveIntegerOfText s = .error .valueError ↔ ∃ i : Int, i < 0 ∧ readInteger s = .ok i) ∧
    (positiveIntegerOfText s = .error .typeError ↔ ∀ i, readInteger s ≠ .ok i) := by
  unfold positiveIntegerOfText readInteger
  cases pyInt0 s with
  | none => simp
  | some i =>
    by_cases hi : i < 0
    · simp only [hi, if_true, reduceCtorEq, false_iff, Except.ok.injEq, true_iff]
      exact ⟨fun n h => by omega, ⟨i, hi, rfl⟩, by simp⟩
    · simp only [hi, if_false, reduceCtorEq, false_iff, Except.ok.injEq]
      exact ⟨fun n => by omega, fun ⟨j, h1, h2⟩ => by omega, fun h => h i rfl⟩

/-- C40: a decimal text is taken exactly if the number is not negative. -/
theorem C40_decimal_texts (i : Int) :
    positiveIntegerOfText (intStr i) = if 0 ≤ i then .ok i.toNat else .error .valueError := by
  unfold positiveIntegerOfText
  rw [pyInt0_intStr]
  by_cases hi : i < 0
  · have : ¬ 0 ≤ i := by omega
    simp [hi, this]
  · have h : 0 ≤ i := by omega
    simp only [hi, if_false, h, if_true]
    congr 1
    omega

example : positiveIntegerOfText "0x1F".toList = .ok 31 ∧ positiveIntegerOfText "-2".toList = .error .valueError ∧
    positiveIntegerOfText "two".toList = .error .typeError := by decide +kernel

/-! ### C19 -/

/-- C19: a decimal integer written by the number formatter reads back, through both readers. -/
theorem C19_decimal (i : Int) :
    ∃ t, formatNumber (.int i) = .ok t ∧ readNumber t = .ok (.int i) ∧ readInteger t = .ok i := by
  refine ⟨intStr i, rfl, ?_, ?_⟩
  · simp [readNumber, pyInt_intStr]
  · simp [readInteger, pyInt0_intStr]

example : formatNumber (.int (-1024)) = .ok "-1024".toList := by decide +kernel

/-- C19: for a numerical value in default, hexadecimal or binary notation and a non-negative
integer, writing and reading yields the same value and notation. -/
theorem C19_notation_partial (n : Nat) (fmt : ValueFormat)
    (hf : fmt = .default ∨ fmt = .hexadecimal ∨ fmt = .binary) :
    ∃ t, formatNumericalValue ⟨.int n, fmt⟩ = .ok t ∧
      numericalValueOfText t = .ok ⟨.int n, fmt⟩ := by
  rcases hf with rfl | rfl | rfl
  · refine ⟨intStr n, rfl, ?_⟩
    unfold numericalValueOfText
    rw [pyInt0_intStr]
    have : ∀ (x : Char) (r : List Char), intStr n = '0' :: x :: r → x ≠ 'x' ∧ x ≠ 'b' := by
      intro x r h
      have hn : ¬ ((n : Int) < 0) := by omega
      simp only [intStr, hn, decide_false, signStr, Bool.false_eq_true, if_false, List.nil_append,
        Int.natAbs_natCast, decStr] at h
      have hlt := digs_lt n
      match hd : digs n, h, hlt with
      | a :: d :: rest, h, hlt =>
        simp only [List.map_cons, List.cons.injEq] at h
        have h10 := hlt d (by simp)
        rw [← h.2.1]
        exact ⟨(digitChar_props (Nat.lt_trans h10 (by decide))).2.2.2.2.1, (digitChar_props10 h10).2.2.1⟩
      | [a], h, _ => simp at h
      | [], h, _ => simp at h
    simp only
    split
    · rename_i heq; exact absurd rfl (this _ _ heq).1
    · rename_i heq; exact absurd rfl (this _ _ heq).2
    · rfl
  · refine ⟨'0' :: 'x' :: radixStr 16 n, rfl, ?_⟩
    simp [numericalValueOfText, pyInt0_hex]
  · refine ⟨'0' :: 'b' :: radixStr 2 n, rfl, ?_⟩
    simp [numericalValueOfText, pyInt0_bin]

example : formatNumericalValue ⟨.int 255, .hexadecimal⟩ = .ok "0xff".toList ∧
    formatNumericalValue ⟨.int 5, .binary⟩ = .ok "0b101".toList := by decide +kernel

/-- C19: decimal notation is read back as default notation, with the same value, for negative
numbers too. -/
theorem C19_decimal_notation (i : Int) (fmt : ValueFormat) (hf : fmt = .default ∨ fmt = .decimal) :
    ∃ t, formatNumericalValue ⟨.int i, fmt⟩ = .ok t ∧
      ∃ v, numericalValueOfText t = .ok v ∧ v.value = .int i := by
  refine ⟨intStr i, by rcases hf with rfl | rfl <;> rfl, ?_⟩
  unfold numericalValueOfText
  rw [pyInt0_intStr]
  exact ⟨_, rfl, rfl⟩

/-- Finding for C19: every negative integer in hexadecimal or binary notation is written as
`0x-…`/`0b-…`, which no reader accepts as an integer. -/
theorem C19_negative_counterexample (n : Nat) (fmt : ValueFormat)
    (hf : fmt = .hexadecimal ∨ fmt = .binary) :
    ∃ t, formatNumericalValue ⟨.int (-(n + 1 : Nat)), fmt⟩ = .ok t ∧
      readInteger t = .error .parseError := by
  have hneg : (-((n + 1 : Nat) : Int)) < 0 := by omega
  have hsp : ∀ b, 2 ≤ b → b ≤ 16 →
      ∀ c ∈ (digsB b (-((n + 1 : Nat) : Int)).natAbs).map Nat.digitChar, isSpace c = false :=
    fun b hb hb' => map_digit_space (fun d hd => Nat.lt_of_lt_of_le (digsB_lt hb _ d hd) hb')
  rcases hf with rfl | rfl
  · refine ⟨_, rfl, ?_⟩
    simp only [radixStr, hneg, decide_true, signStr, if_true, List.singleton_append]
    simp only [readInteger, pyInt0_neg_radix 'x' (Or.inl rfl) _ (hsp 16 (by decide) (by decide))]
  · refine ⟨_, rfl, ?_⟩
    simp only [radixStr, hneg, decide_true, signStr, if_true, List.singleton_append]
    simp only [readInteger, pyInt0_neg_radix 'b' (Or.inr rfl) _ (hsp 2 (by decide) (by decide))]

/-- The concrete text: `-5` becomes `0x-5`, which raises ValueError when read. -/
theorem C19_negative_text :
    formatNumericalValue ⟨.int (-5), .hexadecimal⟩ = .ok "0x-5".toList ∧
      numericalValueOfText "0x-5".toList = .error .valueError := by decide +kernel

/-- Finding for C19: scientific notation keeps only seven digits of an integer. -/
theorem C19_scientific_counterexample :
    formatNumericalValue ⟨.int 12345678, .scientific⟩ = .ok "1.234568e+07".toList ∧
      numericalValueOfText "1.234568e+07".toList = .ok ⟨.float (.fin false 1234568 1), .default⟩ := by
  decide +kernel

/-! ### C20 -/

/-- The numeric value of a Python number in canonical decimal form: sign, coefficient without
trailing zeros, exponent (zero is never negative); `none` for the special floats. -/
def valueOf : PyNum → Option (Bool × Nat × Int)
  | .int i => some (decide (i < 0), canon i.natAbs 0)
  | .float (.fin neg c e) => some (neg && decide (c ≠ 0), canon c e)
  | .float _ => none

theorem canon_pow (c : Nat) (hc : c ≠ 0) (k : Nat) (e : Int) :
    canon (c * 10 ^ k) e = canon c (e + k) := by
  induction k generalizing e with
  | zero => simp
  | succ k ih =>
    have h10 : c * 10 ^ (k + 1) = c * 10 ^ k * 10 := by rw [Nat.pow_succ, Nat.mul_assoc]
    have hne : c * 10 ^ (k + 1) ≠ 0 := by
      have : 0 < 10 ^ (k + 1) := Nat.pow_pos (by decide)
      exact Nat.mul_ne_zero hc (by omega)
    rw [canon]
    rw [dif_neg hne, if_pos (by rw [h10]; simp)]
    have : c * 10 ^ (k + 1) / 10 = c * 10 ^ k := by rw [h10]; simp
    rw [this, ih]
    congr 1
    omega

theorem numDigits_le_iff (n : Nat) (k : Nat) (hk : 0 < k) : numDigits n ≤ k ↔ n < 10 ^ k := by
  induction k generalizing n with
  | zero => omega
  | succ k ih =>
    unfold numDigits at ih ⊢
    rw [digs]
    by_cases h : n < 10
    · simp only [h, if_true, List.length_singleton]
      have : 10 ^ 1 ≤ 10 ^ (k + 1) := Nat.pow_le_pow_right (by decide) (by omega)
      constructor
      · intro _; omega
      · intro _; omega
    · simp only [h, if_false, List.length_append, List.length_singleton]
      by_cases hk0 : k = 0
      · subst hk0
        have : 0 < (digs (n / 10)).length := List.length_pos_iff.2 (digs_ne_nil _)
        constructor
        · intro hx; omega
        · intro hx; simp at hx; omega
      · have := ih (n / 10) (by omega)
        rw [Nat.pow_succ]
        omega

theorem intStr_sign (neg : Bool) (n : Nat) (hn : n ≠ 0) :
    signStr neg ++ decStr n = intStr (withSign neg n) := by
  unfold intStr withSign
  cases neg
  · have : ¬ ((n : Int) < 0) := by omega
    simp [this]
  · have : -(n : Int) < 0 := by omega
    have h0 : 0 < n := by omega
    simp [this, h0]

theorem negZero_read : readNumber ['-', '0'] = .ok (.int 0) := by decide +kernel
theorem zero_read : readNumber ['0'] = .ok (.int 0) := by decide +kernel

/-- C20 (all floats but the integral ones of 29 or more digits): writing succeeds, and the
text reads back as a number with exactly the value of the float's shortest decimal
representation. -/
theorem C20_value_kept_partial (neg : Bool) (c : Nat) (e : Int)
    (hcan : (PyFloat.fin neg c e).Canonical) (hsize : 0 ≤ e → c * 10 ^ e.toNat < 10 ^ 28) :
    ∃ t n, formatFloat (.fin neg c e) = .ok t ∧ readNumber t = .ok n ∧
      valueOf n = valueOf (.float (.fin neg c e)) := by
  unfold formatFloat
  by_cases hc : c = 0
  · subst hc
    cases neg
    · refine ⟨_, _, rfl, zero_read, ?_⟩
      simp [valueOf, canon]
    · refine ⟨_, _, rfl, negZero_read, ?_⟩
      simp [valueOf, canon]
  · simp only [hc, if_false]
    by_cases he : 0 ≤ e
    · simp only [he, if_true]
      have hpos : c * 10 ^ e.toNat ≠ 0 :=
        Nat.mul_ne_zero hc (Nat.ne_of_gt (Nat.pow_pos (by decide)))
      have hnd : ¬ numDigits (c * 10 ^ e.toNat) > precision := by
        have := (numDigits_le_iff (c * 10 ^ e.toNat) 28 (by decide)).2 (hsize he)
        unfold precision; omega
      rw [if_neg hnd]
      refine ⟨_, .int (withSign neg (c * 10 ^ e.toNat : Nat)), rfl, ?_, ?_⟩
      · rw [intStr_sign neg _ hpos]
        simp [readNumber, pyInt_intStr]
      · have hv : canon (c * 10 ^ e.toNat) 0 = canon c e := by
          rw [canon_pow c hc]
          congr 1
          omega
        cases neg
        · have h0 : ¬ ((c * 10 ^ e.toNat : Nat) : Int) < 0 := by omega
          simp only [valueOf, withSign, Bool.false_eq_true, if_false, h0, decide_false,
            Int.natAbs_natCast, hv, Bool.false_and]
        · have h0 : -((c * 10 ^ e.toNat : Nat) : Int) < 0 := by omega
          simp only [valueOf, withSign, if_true, h0, decide_true, Int.natAbs_neg,
            Int.natAbs_natCast, hv, Bool.true_and, ne_eq, hc, not_false_eq_true]
    · simp only [he, if_false]
      refine ⟨_, _, rfl, (readNumber_decimalStr neg c e (by omega) hcan).1, rfl⟩

example : (PyFloat.fin false 1 (-1)).Canonical ∧ (PyFloat.fin true 15 5).Canonical := by
  constructor <;> simp [PyFloat.Canonical, canon]

example : formatFloat (.fin true 12345 (-2)) = .ok "-123.45".toList ∧
    formatFloat (.fin false 1 (-7)) = .ok "1E-7".toList ∧
    formatFloat (.fin false 25 (-5)) = .ok "0.00025".toList ∧
    formatFloat (.fin false 15 3) = .ok "15000".toList := by decide +kernel

/-- C20: non-integral floats come back as the very same float. -/
theorem C20_fractional_exact (neg : Bool) (c : Nat) (e : Int) (hc : c ≠ 0) (he : e < 0)
    (hcan : (PyFloat.fin neg c e).Canonical) :
    ∃ t, formatFloat (.fin neg c e) = .ok t ∧ readNumber t = .ok (.float (.fin neg c e)) ∧
      pyFloat t = some (.fin neg c e) := by
  refine ⟨decimalStr neg c e, ?_, readNumber_decimalStr neg c e he hcan⟩
  simp only [formatFloat, hc, if_false]
  rw [if_neg (by omega)]

/-- C20: integral values are written without fraction and exponent: a sign and digits. -/
theorem C20_integral_plain (neg : Bool) (c : Nat) (e : Int) (t : List Char)
    (he : c = 0 ∨ 0 ≤ e) (h : formatFloat (.fin neg c e) = .ok t) :
    t = (if neg then ['-'] else []) ++ decStr (c * 10 ^ e.toNat) := by
  unfold formatFloat at h
  by_cases hc : c = 0
  · subst hc
    simp only [if_true, Except.ok.injEq] at h
    subst h
    simp [signStr, decStr_zero]
  · have he' : 0 ≤ e := he.resolve_left hc
    simp only [hc, if_false, he', if_true] at h
    split at h
    · simp at h
    · simp only [Except.ok.injEq] at h
      exact h.symm

/-- C20: the special floats. -/
theorem C20_special :
    formatFloat (.inf false) = .ok "INF".toList ∧ readNumber "INF".toList = .ok (.float (.inf false)) ∧
    formatFloat (.inf true) = .ok "-INF".toList ∧ readNumber "-INF".toList = .ok (.float (.inf true)) ∧
    formatFloat .nan = .ok "NaN".toList ∧ readNumber "NaN".toList = .ok (.float .nan) := by
  decide +kernel

/-- Finding for C20: writing fails exactly for the integral floats of 29 and more digits. -/
theorem C20_fails_iff (neg : Bool) (c : Nat) (e : Int) :
    formatFloat (.fin neg c e) = .error .invalidOperation ↔
      c ≠ 0 ∧ 0 ≤ e ∧ 10 ^ 28 ≤ c * 10 ^ e.toNat := by
  unfold formatFloat
  by_cases hc : c = 0
  · simp [hc]
  · by_cases he : 0 ≤ e
    · simp only [hc, he, if_false, if_true, ne_eq, not_false_eq_true, true_and]
      have hk := numDigits_le_iff (c * 10 ^ e.toNat) 28 (by decide)
      by_cases hn : numDigits (c * 10 ^ e.toNat) > precision
      · simp only [hn, if_true, true_iff]
        unfold precision at hn
        omega
      · simp only [hn, if_false, reduceCtorEq, false_iff]
        unfold precision at hn
        omega
    · simp [hc, he]

theorem C20_counterexample : formatFloat (.fin false 1 28) = .error .invalidOperation := by
  decide +kernel

end Verif.Props.Num
