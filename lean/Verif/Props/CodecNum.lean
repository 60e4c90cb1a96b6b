import Verif.Codec.Notation
import Verif.Props.CodecMap
/-
C53: whole numbers mean the same in all notations.
-/
namespace Verif.Props.CodecNum
open Verif.Py Verif.Num Verif.Xml Verif.Xml.Spec Verif.Codec Verif.Codec.Spec Verif.Codec.Map
open Verif.Codec.Notation Verif.Num.Notation
open Verif.Props.CodecReject Verif.Props.CodecMap

/-- C53 (partial): wherever in a file, at whatever depth, a number is read from a text that is a
decimal, hexadecimal or binary number, it is the number the text denotes.  (`Says d v` holds of all
elements that are read and of all elements in them, C54.)
(Missing: octal numbers, `C53_octal_counterexample`; and texts that cannot be read,
`C53_counterexample`.) -/
theorem C53_value_partial (nt : Notation) (t : String) (as : Attrs) (xs : List Dom) (s : String)
    (n : Int) (v : Val Cls) (x : PyNum) (hs : Says (.elem t as xs) v) (hl : leadText xs = some s)
    (hd : Denotes nt s.toList n) (hnt : nt ≠ .octal) (hx : numberIn v = some x) : IsWhole x n :=
  number_right hd hnt (says_number hs hl hx)

/-- C53 for the attributes that take all these notations: they are the number. -/
theorem C53_integers_partial (m : RM) (t : String) (as : Attrs) (ds : List Dom) (c : Cls)
    (fs : List (String × Val Cls)) (a tag u : String) (as' : Attrs) (xs : List Dom) (s : String)
    (nt : Notation) (n : Int) (hr : (c, a, tag) ∈ integerParts)
    (h : readWith tables m (.elem t as ds) = .ok (.obj c fs))
    (hx : firstElem tag ds = some (.elem u as' xs)) (hl : leadText xs = some s)
    (hd : Denotes nt s.toList n) (hnt : nt ≠ .octal) : dictGet fs a = some (.num (.int n)) := by
  obtain ⟨i, hi, hnum⟩ := integer_value hr h hx hl
  rcases number_right hd hnt hnum with h | h
  · cases h
    exact hi
  · cases h

/-- C53: and it makes no difference which notation is used: elements that differ only in the
notation of such a number are read as the same object, or the same exception is raised. -/
theorem C53_same_partial (m : RM) (t : String) (as : Attrs) (before after : List Dom) (c : Cls)
    (a tag : String) (as1 as2 : Attrs) (s s' : String) (nt nt' : Notation) (n : Int)
    (hc : objClass m t = some c) (hr : (c, a, tag) ∈ integerParts)
    (hfirst : firstElem tag before = none)
    (hd : Denotes nt s.toList n) (hd' : Denotes nt' s'.toList n) (hnt : nt ≠ .octal)
    (hnt' : nt' ≠ .octal) :
    readWith tables m (.elem t as (before ++ .elem tag as1 [.text s] :: after)) =
    readWith tables m (.elem t as (before ++ .elem tag as2 [.text s'] :: after)) := by
  have hv : ∀ {nt : Notation} {s : String}, Denotes nt s.toList n → nt ≠ .octal →
      pyInt0 s.toList = some n ∧ leadText [.text s] = some s := by
    intro nt s hd hnt
    refine ⟨?_, ?_⟩
    · cases nt with
      | octal => exact absurd rfl hnt
      | decimal => exact (decimal_all hd).2.1
      | hexadecimal => exact (radix_all hd (.inl rfl)).2.1
      | binary => exact (radix_all hd (.inr rfl)).2.1
    · have : s ≠ "" := by
        rintro rfl
        cases hd
      simp [leadText, this]
  have hf : ∀ (tg : String) (x : Dom) (b : List Dom),
      firstElem tg (b ++ x :: after) = match firstElem tg b with
        | some d => some d
        | none => firstElem tg (x :: after) := by
    intro tg x b
    induction b with
    | nil => rfl
    | cons y b ih =>
      simp only [List.cons_append, firstElem]
      by_cases hy : hasTag tg y = true
      · simp [hy]
      · simp only [hy, Bool.false_eq_true, if_false]
        exact ih
  have h1 := hv hd hnt
  have h2 := hv hd' hnt'
  refine notation_same hc hr ?_ (u := tag) (u' := tag) (as1 := as1) (as2 := as2) (xs := [.text s])
    (xs' := [.text s']) ?_ ?_ h1.2 h2.2 (h1.1.trans h2.1.symm)
  · intro tg htg
    rw [hf, hf]
    have : tag ≠ tg := Ne.symm htg
    simp [firstElem, hasTag, this]
  · rw [hf, hfirst]
    simp [firstElem, hasTag]
  · rw [hf, hfirst]
    simp [firstElem, hasTag]

/-- C53 is false: limits, numerical values, array sizes, bit positions and the like cannot be
hexadecimal or binary; an element with such a number is never read. -/
theorem C53_counterexample (m : RM) (t : String) (as : Attrs) (ds : List Dom) (c : Cls)
    (a tag u : String) (as' : Attrs) (xs : List Dom) (s : String) (nt : Notation) (n : Int)
    (hc : objClass m t = some c) (hr : (c, a, tag) ∈ plainParts)
    (hx : firstElem tag ds = some (.elem u as' xs)) (hl : leadText xs = some s)
    (hd : Denotes nt s.toList n) (hnt : nt = .hexadecimal ∨ nt = .binary) :
    ∃ e, readWith tables m (.elem t as ds) = .error e := by
  obtain ⟨h1, -, h3, -⟩ := radix_all hd hnt
  exact plain_unreadable hc hr hx hl h1 h3

/-- C53 is false of octal numbers: where they are read at all, their digits are taken as decimal
ones, so that the number is another one unless it is less than eight. -/
theorem C53_octal_counterexample (t : String) (as : Attrs) (xs : List Dom) (s : String) (n : Int)
    (v : Val Cls) (x : PyNum) (hs : Says (.elem t as xs) v) (hl : leadText xs = some s)
    (hd : Denotes .octal s.toList n) (hx : numberIn v = some x) :
    ∃ k : Nat, Numeral 10 s.toList k ∧ IsWhole x k ∧ (n < 8 ↔ (k : Int) = n) := by
  obtain ⟨k, h1, h2, h3⟩ := number_octal hd (says_number hs hl hx)
  exact ⟨k, h1, h3, h2⟩

/-- C53: and the attributes that take hexadecimal and binary numbers refuse all octal ones but
zero. -/
theorem C53_octal_unreadable (m : RM) (t : String) (as : Attrs) (ds : List Dom) (c : Cls)
    (a tag u : String) (as' : Attrs) (xs : List Dom) (s : String) (n : Int)
    (hc : objClass m t = some c) (hr : (c, a, tag) ∈ integerParts)
    (hx : firstElem tag ds = some (.elem u as' xs)) (hl : leadText xs = some s)
    (hd : Denotes .octal s.toList n) (hn : n ≠ 0) :
    ∃ e, readWith tables m (.elem t as ds) = .error e := by
  obtain ⟨k, h1, h2, h3, h4, h5, -⟩ := octal_all hd
  refine integer_unreadable hc hr hx hl ?_
  rw [h5, if_neg]
  rintro rfl
  have : 0 ≤ n := by
    generalize s.toList = cs at hd
    cases hd
    omega
  omega

/-! ### Examples -/

theorem hex1F : Denotes .hexadecimal "0x1F".toList 31 :=
  .hexadecimal (.inl rfl) (.more (cs := ['1']) (n := 1) (.digit (.inl rfl) (by decide)) (c := 'F')
    (d := 15) (.inr rfl) (by decide))

theorem dec31 : Denotes .decimal "31".toList 31 :=
  .decimal (by decide) (.more (cs := ['3']) (n := 3) (.digit (.inl rfl) (by decide)) (c := '1')
    (d := 1) (.inl rfl) (by decide))

theorem oct17 : Denotes .octal "017".toList 15 :=
  .octal (.more (cs := ['1']) (n := 1) (.digit (.inl rfl) (by decide)) (c := '7')
    (d := 7) (.inl rfl) (by decide))

/-- A base type with its size in some notation. -/
def baseType (size : String) : Dom :=
  .elem "SW-BASE-TYPE" [] ([.elem "SHORT-NAME" [] [.text "T"]] ++
    .elem "BASE-TYPE-SIZE" [] [.text size] :: [])

def sizeOf? (r : Except PyErr (Val Cls)) (a : String) : Option Int :=
  match r with
  | .ok (.obj _ fs) =>
    match dictGet fs a with
    | some (.num (.int i)) => some i
    | _ => none
  | _ => none

example : readWith tables .sw_base_type (baseType "0x1F") =
    readWith tables .sw_base_type (baseType "31") :=
  C53_same_partial _ _ _ _ _ .SwBaseType "size" _ _ _ _ _ _ _ _ (by decide +kernel)
    (by decide +kernel) (by decide +kernel) hex1F dec31 (by decide) (by decide)

example : sizeOf? (readWith tables .sw_base_type (baseType "0x1F")) "size" = some 31 ∧
    sizeOf? (readWith tables .sw_base_type (baseType "31")) "size" = some 31 ∧
    sizeOf? (readWith tables .sw_base_type (baseType "017")) "size" = none := by decide +kernel

example : ∃ e, readWith tables .sw_base_type (baseType "017") = .error e :=
  C53_octal_unreadable _ _ _ _ .SwBaseType "size" "BASE-TYPE-SIZE" _ _ _ _ 15 (by decide +kernel)
    (by decide +kernel) rfl rfl oct17 (by decide)

/-- A numerical value. -/
def numerical (value : String) : Dom :=
  .elem "NUMERICAL-VALUE-SPECIFICATION" [] [.elem "VALUE" [] [.text value]]

example : ∃ e, readWith tables .numerical_value_specification (numerical "0x1F") = .error e :=
  C53_counterexample _ _ _ _ .NumericalValueSpecification "value" "VALUE" _ _ _ _ .hexadecimal 31
    (by decide +kernel) (by decide +kernel) rfl rfl hex1F (.inl rfl)

/-- 017 is 15, and read as 17. -/
example : sizeOf? (readWith tables .numerical_value_specification (numerical "017")) "value" =
    some 17 := by decide +kernel

end Verif.Props.CodecNum
