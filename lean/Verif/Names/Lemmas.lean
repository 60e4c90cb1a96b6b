import Verif.Names.Model
/-
Facts about the unique-name helper for base names without regular expression characters.
-/
namespace Verif.Names
open Verif.Num

/-- Base names whose regular expression is the text itself; all AUTOSAR identifiers are. -/
def Plain (base : Name) : Prop := ∀ c ∈ base, c ∉ unsupported ∧ c ∉ operators ∧ c ≠ '.'

instance (base : Name) : Decidable (Plain base) := by unfold Plain; infer_instance

/-- The expression made from a plain base name. -/
def plainItems (base : Name) : List (Atom × Quant) := base.map fun c => (.lit c, .one)

theorem quantOf_plain {cs : List Char} (h : Plain cs) : quantOf cs = (.one, cs) := by
  cases cs with
  | nil => rfl
  | cons c cs =>
    have hc := (h c (by simp)).2.1
    unfold quantOf
    split
    · rename_i heq; simp at heq; rw [heq.1] at hc; exact absurd (by decide) hc
    · rename_i heq; simp at heq; rw [heq.1] at hc; exact absurd (by decide) hc
    · rename_i heq; simp at heq; rw [heq.1] at hc; exact absurd (by decide) hc
    · rfl

theorem compile_plain (base : Name) (h : Plain base) : compile base = some (plainItems base) := by
  induction base with
  | nil => rw [compile]; rfl
  | cons c cs ih =>
    have hcs : Plain cs := fun d hd => h d (by simp [hd])
    obtain ⟨h1, h2, h3⟩ := h c (by simp)
    rw [compile]
    simp only [h1, h2, or_self, if_false, quantOf_plain hcs, ih hcs, h3]
    rfl

theorem rests_plain_append (base t : Name) : rests (plainItems base) (base ++ t) = [t] := by
  induction base with
  | nil => rfl
  | cons c cs ih =>
    simp only [plainItems, List.map_cons, List.cons_append, rests, itemRests, Atom.matches,
      decide_true, if_true, List.flatMap_cons, List.flatMap_nil, List.append_nil]
    exact ih

theorem mem_rests_plain (base s r : Name) (h : r ∈ rests (plainItems base) s) : s = base ++ r := by
  induction base generalizing s with
  | nil => simp [plainItems, rests] at h; simp [h]
  | cons c cs ih =>
    cases s with
    | nil => simp [plainItems, rests, itemRests] at h
    | cons d ds =>
      simp only [plainItems, List.map_cons, rests, itemRests, Atom.matches] at h
      by_cases hd : d = c
      · simp only [hd, decide_true, if_true, List.flatMap_cons, List.flatMap_nil,
          List.append_nil] at h
        rw [ih ds h, hd]; rfl
      · simp [hd] at h

/-- The match index for a plain base name. -/
theorem matchIndex_plain (D : Digits) (base name : Name) (k : Nat) :
    matchIndex D (plainItems base) name = some k ↔
      ∃ t, name = base ++ t ∧ matchSuffix D t = some k := by
  unfold matchIndex
  constructor
  · intro h
    obtain ⟨r, hr, hk⟩ := List.exists_of_findSome?_eq_some h
    exact ⟨r, mem_rests_plain _ _ _ hr, hk⟩
  · rintro ⟨t, rfl, ht⟩
    rw [rests_plain_append]
    simp [ht]

theorem matchSuffix_head {D : Digits} {t : List Char} {k : Nat} (h : matchSuffix D t = some k) :
    ∃ cs, t = '_' :: cs := by
  unfold matchSuffix at h
  split at h
  · exact ⟨_, rfl⟩
  · simp at h

theorem takeDigits_append (D : Digits) (l : List Nat) (hl : ∀ d ∈ l, d < 10) (rest : List Char)
    (hr : ∀ c cs, rest = c :: cs → D.val c = none) :
    takeDigits D (l.map Nat.digitChar ++ rest) = (l, rest) := by
  induction l with
  | nil =>
    cases rest with
    | nil => rfl
    | cons c cs => simp [takeDigits, hr c cs rfl]
  | cons d ds ih =>
    have hd := D.ascii d (hl d (by simp))
    have := ih (fun x hx => hl x (by simp [hx]))
    simp [takeDigits, hd, this]

theorem matchSuffix_decStr (D : Digits) (k : Nat) (rest : List Char)
    (hr : ∀ c cs, rest = c :: cs → D.val c = none) :
    matchSuffix D ('_' :: (decStr k ++ rest)) = some k := by
  unfold matchSuffix decStr
  simp only [takeDigits_append D (digs k) (digs_lt k) rest hr]
  cases h : digs k with
  | nil => exact absurd h (digs_ne_nil k)
  | cons d ds => simp only [← h, ofDigs_digs]

/-- `base_k` followed by nothing or by a non-digit matches with index `k`. -/
theorem match_indexed (D : Digits) (base : Name) (k : Nat) (rest : List Char)
    (hr : ∀ c cs, rest = c :: cs → D.val c = none) :
    matchIndex D (plainItems base) (indexed base k ++ rest) = some k := by
  rw [matchIndex_plain]
  refine ⟨'_' :: (decStr k ++ rest), ?_, matchSuffix_decStr D k rest hr⟩
  simp [indexed, List.append_assoc]

theorem match_base (D : Digits) (base : Name) : matchIndex D (plainItems base) base = none := by
  cases h : matchIndex D (plainItems base) base with
  | none => rfl
  | some k =>
    rw [matchIndex_plain] at h
    obtain ⟨t, ht, hk⟩ := h
    obtain ⟨cs, rfl⟩ := matchSuffix_head hk
    have := congrArg List.length ht
    simp at this

/-! ### The loop -/

theorem scan_highest (m : Name → Option Nat) (base : Name) (names : List Name) (i : Nat)
    (st : Scan) :
    st.highest ≤ (scan m base i names st).highest ∧
    ∀ n ∈ names, ∀ k, m n = some k → k ≤ (scan m base i names st).highest := by
  induction names generalizing i st with
  | nil => simp [scan]
  | cons a rest ih =>
    obtain ⟨h1, h2⟩ := ih (i + 1) (scanStep m base i a st)
    have hs : st.highest ≤ (scanStep m base i a st).highest := by
      unfold scanStep; split
      · exact Nat.le_max_left _ _
      · split <;> exact Nat.le_refl _
    refine ⟨Nat.le_trans hs h1, ?_⟩
    intro n hn k hk
    simp only [List.mem_cons] at hn
    rcases hn with rfl | hn
    · refine Nat.le_trans ?_ h1
      simp only [scanStep, hk]
      exact Nat.le_max_right _ _
    · exact h2 n hn k hk

theorem scan_hasIndex (m : Name → Option Nat) (base : Name) (names : List Name) (i : Nat)
    (st : Scan) :
    (scan m base i names st).hasIndex = true ↔
      st.hasIndex = true ∨ ∃ n ∈ names, ∃ k, m n = some k := by
  induction names generalizing i st with
  | nil => simp [scan]
  | cons a rest ih =>
    simp only [scan]
    rw [ih]
    unfold scanStep
    cases h : m a with
    | some k => simp [h]
    | none =>
      simp only
      split <;> simp [h]

theorem scan_unpatched_none (m : Name → Option Nat) (base : Name) (names : List Name) (i : Nat)
    (st : Scan) (hb : base ∉ names) : (scan m base i names st).unpatched = st.unpatched := by
  induction names generalizing i st with
  | nil => rfl
  | cons a rest ih =>
    simp only [List.mem_cons, not_or] at hb
    simp only [scan]
    rw [ih _ _ hb.2]
    unfold scanStep
    split
    · rfl
    · rw [if_neg (fun e => hb.1 e.symm)]

theorem scan_append (m : Name → Option Nat) (base : Name) (p s : List Name) (i : Nat) (st : Scan) :
    scan m base i (p ++ s) st = scan m base (i + p.length) s (scan m base i p st) := by
  induction p generalizing i st with
  | nil => simp [scan]
  | cons a rest ih =>
    simp only [List.cons_append, scan, List.length_cons]
    rw [ih]
    congr 1
    omega

theorem scan_unpatched_last (m : Name → Option Nat) (base : Name) (p s : List Name) (i : Nat)
    (st : Scan) (hm : m base = none) (hb : base ∉ s) :
    (scan m base i (p ++ base :: s) st).unpatched = some (i + p.length) := by
  rw [scan_append]
  simp only [scan]
  rw [scan_unpatched_none _ _ _ _ _ hb]
  simp [scanStep, hm]

theorem split_last {base : Name} {names : List Name} (h : base ∈ names) :
    ∃ p s, names = p ++ base :: s ∧ base ∉ s := by
  induction names with
  | nil => simp at h
  | cons a rest ih =>
    by_cases hr : base ∈ rest
    · obtain ⟨p, s, rfl, hs⟩ := ih hr
      exact ⟨a :: p, s, rfl, hs⟩
    · simp only [List.mem_cons, hr, or_false] at h
      exact ⟨[], rest, by simp [h], hr⟩

/-! ### Result of the helper -/

/-- `name` counts as a numbered variant of `base`, with number `k`. -/
def Numbered (D : Digits) (base name : Name) (k : Nat) : Prop :=
  matchIndex D (plainItems base) name = some k

theorem indexed_zero (base : Name) : base ++ ['_', '0'] = indexed base 0 := by
  simp [indexed, decStr_zero]

/-- The three possible results. -/
theorem makeUnique_cases (D : Digits) (names : List Name) (base : Name) (hp : Plain base) :
    ∃ h, (∀ n ∈ names, ∀ k, Numbered D base n k → k ≤ h) ∧
      ((base ∉ names ∧ (∀ n ∈ names, ∀ k, ¬ Numbered D base n k) ∧
          makeUnique D names base = some (names, base)) ∨
       (base ∉ names ∧ makeUnique D names base = some (names, indexed base (h + 1))) ∨
       (∃ p s, names = p ++ base :: s ∧ base ∉ s ∧
          makeUnique D names base = some (p ++ indexed base 0 :: s, indexed base (h + 1)))) := by
  unfold makeUnique
  rw [compile_plain base hp]
  simp only [Option.map_some]
  refine ⟨(scan (matchIndex D (plainItems base)) base 0 names {}).highest, ?_, ?_⟩
  · exact (scan_highest _ _ _ _ _).2
  by_cases hb : base ∈ names
  · right; right
    obtain ⟨p, s, rfl, hs⟩ := split_last hb
    refine ⟨p, s, rfl, hs, ?_⟩
    have hu := scan_unpatched_last (matchIndex D (plainItems base)) base p s 0 {}
      (match_base D base) hs
    simp only [Nat.zero_add] at hu
    simp only [finish, hu, ne_eq, reduceCtorEq, not_false_eq_true, or_true, if_true,
      Option.some.injEq, Prod.mk.injEq, and_true]
    rw [← indexed_zero]
    simp
  · have hu := scan_unpatched_none (matchIndex D (plainItems base)) base names 0 {} hb
    have hu' : (scan (matchIndex D (plainItems base)) base 0 names {}).unpatched = none := hu
    by_cases hi : (scan (matchIndex D (plainItems base)) base 0 names {}).hasIndex = true
    · right; left
      refine ⟨hb, ?_⟩
      simp [finish, hu', hi]
    · left
      refine ⟨hb, ?_, ?_⟩
      · intro n hn k hk
        exact hi ((scan_hasIndex _ _ _ _ _).2 (Or.inr ⟨n, hn, k, hk⟩))
      · simp [finish, hu', hi]

/-! ### Names built with underscores -/

/-- Splitting at the last underscore is unique. -/
theorem underscore_split {a b x y : Name} (hx : '_' ∉ x) (hy : '_' ∉ y)
    (h : a ++ '_' :: x = b ++ '_' :: y) : a = b ∧ x = y := by
  induction a generalizing b with
  | nil =>
    cases b with
    | nil => simp at h; exact ⟨rfl, h⟩
    | cons d ds =>
      simp only [List.nil_append, List.cons_append, List.cons.injEq] at h
      exact absurd (by rw [h.2]; simp) hx
  | cons c cs ih =>
    cases b with
    | nil =>
      simp only [List.nil_append, List.cons_append, List.cons.injEq] at h
      exact absurd (by rw [← h.2]; simp) hy
    | cons d ds =>
      simp only [List.cons_append, List.cons.injEq] at h
      obtain ⟨h1, h2⟩ := ih h.2
      exact ⟨by rw [h.1, h1], h2⟩

theorem indexed_inj {a b : Name} {j k : Nat} (h : indexed a j = indexed b k) : a = b ∧ j = k := by
  obtain ⟨h1, h2⟩ := underscore_split (underscore_not_mem_decStr j) (underscore_not_mem_decStr k) h
  exact ⟨h1, decStr_inj h2⟩

theorem indexed_ne_self (a : Name) (k : Nat) : indexed a k ≠ a := by
  intro h
  have := congrArg List.length h
  simp [indexed] at this

end Verif.Names
