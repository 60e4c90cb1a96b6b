/-
Python primitives used by the modelled code: exceptions as values, the string
operations `startswith`, `partition`, `split`, `join`, and dictionaries with
insertion order.  Nothing here is specific to the repository.
-/
namespace Verif

/-- Exception classes raised by the modelled code.  `duplicateElement`,
`invalidReference`, `versionError` are `autosar/xml/exception.py`;
`parseError` is `autosar/xml/exception.py` `ParseError` as raised by the reader;
`invalidOperation` is `decimal.InvalidOperation`; `recursionError` stands for a
call that never returns. -/
inductive PyErr where
  | typeError | valueError | keyError | indexError | attributeError | runtimeError
  | notImplemented | assertionError | duplicateElement | invalidReference
  | versionError | parseError | invalidOperation | recursionError
  deriving DecidableEq, Repr

deriving instance DecidableEq for Except

namespace Py

/-- `s.partition(sep)` for a one-character separator, dropping the middle part:
text before the first `sep`, text after it (`""` when absent). -/
def partL (sep : Char) : List Char → List Char × List Char
  | [] => ([], [])
  | c :: cs =>
    if c = sep then ([], cs)
    else (c :: (partL sep cs).1, (partL sep cs).2)

/-- `s.split(sep)` for a one-character separator (never empty). -/
def splitL (sep : Char) : List Char → List (List Char)
  | [] => [[]]
  | c :: cs =>
    if c = sep then [] :: splitL sep cs
    else match splitL sep cs with
      | [] => [[c]]
      | w :: ws => (c :: w) :: ws

/-- `sep.join(parts)` for a one-character separator. -/
def joinL (sep : Char) : List (List Char) → List Char
  | [] => []
  | [w] => w
  | w :: v :: ws => w ++ sep :: joinL sep (v :: ws)

/-- `s[1:] if s.startswith(sep) else s`. -/
def stripLead (sep : Char) : List Char → List Char
  | [] => []
  | c :: cs => if c = sep then cs else c :: cs

/-- `s.split(sep)` on strings. -/
def split (sep : Char) (s : String) : List String :=
  (splitL sep s.toList).map String.ofList

/-- `sep.join(parts)` on strings, for a one-character separator. -/
def join (sep : Char) (parts : List String) : String :=
  String.ofList (joinL sep (parts.map String.toList))

/-- `s.startswith(c)` for one character. -/
def startsWithL (sep : Char) : List Char → Bool
  | [] => false
  | c :: _ => c = sep

/-- A `dict` as an association list in insertion order. -/
abbrev Dict (α : Type) := List (String × α)

/-- `d.get(k, None)`. -/
def dictGet {α : Type} (d : Dict α) (k : String) : Option α :=
  match d with
  | [] => none
  | (k', v) :: rest => if k' = k then some v else dictGet rest k

/-- `k in d`. -/
def dictHas {α : Type} (d : Dict α) (k : String) : Bool := (dictGet d k).isSome

/-- `d[k] = v`: replaces in place when the key exists, otherwise adds at the end. -/
def dictSet {α : Type} (d : Dict α) (k : String) (v : α) : Dict α :=
  match d with
  | [] => [(k, v)]
  | (k', v') :: rest => if k' = k then (k, v) :: rest else (k', v') :: dictSet rest k v

/-! ### Facts about these operations -/

theorem partL_length (sep : Char) (s : List Char) : (partL sep s).2.length ≤ s.length := by
  induction s with
  | nil => simp [partL]
  | cons c cs ih =>
    by_cases h : c = sep <;> simp [partL, h]
    omega

theorem partL_length_lt (sep : Char) (s : List Char) (h : (partL sep s).2 ≠ []) :
    (partL sep s).2.length < s.length := by
  induction s with
  | nil => simp [partL] at h
  | cons c cs ih =>
    by_cases hc : c = sep
    · simp [partL, hc]
    · simp only [partL, hc, if_false] at h ⊢
      have := ih h
      simp; omega

theorem stripLead_length (sep : Char) (s : List Char) : (stripLead sep s).length ≤ s.length := by
  cases s with
  | nil => simp [stripLead]
  | cons c cs => by_cases h : c = sep <;> simp [stripLead, h]

theorem stripLead_of_not (sep : Char) (s : List Char) (h : startsWithL sep s = false) :
    stripLead sep s = s := by
  cases s with
  | nil => rfl
  | cons c cs => simp [startsWithL] at h; simp [stripLead, h]

theorem partL_append (sep : Char) (a b : List Char) (h : sep ∉ a) :
    partL sep (a ++ sep :: b) = (a, b) := by
  induction a with
  | nil => simp [partL]
  | cons c cs ih =>
    simp at h
    have hc : c ≠ sep := fun e => h.1 e.symm
    simp [partL, hc, ih h.2]

theorem partL_no_sep (sep : Char) (a : List Char) (h : sep ∉ a) : partL sep a = (a, []) := by
  induction a with
  | nil => simp [partL]
  | cons c cs ih =>
    simp at h
    have hc : c ≠ sep := fun e => h.1 e.symm
    simp [partL, hc, ih h.2]

theorem not_mem_partL_fst (sep : Char) (s : List Char) : sep ∉ (partL sep s).1 := by
  induction s with
  | nil => simp [partL]
  | cons c cs ih =>
    by_cases hc : c = sep
    · simp [partL, hc]
    · simp [partL, hc, ih]; exact fun e => hc e.symm

theorem partL_spec (sep : Char) (s : List Char) :
    s = (partL sep s).1 ∧ (partL sep s).2 = [] ∧ sep ∉ s ∨
      s = (partL sep s).1 ++ sep :: (partL sep s).2 := by
  induction s with
  | nil => simp [partL]
  | cons c cs ih =>
    by_cases hc : c = sep
    · right; simp [partL, hc]
    · rcases ih with ⟨h1, h2, h3⟩ | h
      · left; simp only [partL, hc, if_false]
        refine ⟨by rw [← h1], h2, ?_⟩
        simp [h3]; exact fun e => hc e.symm
      · right; simp only [partL, hc, if_false, List.cons_append]; rw [← h]

theorem splitL_ne_nil (sep : Char) (s : List Char) : splitL sep s ≠ [] := by
  cases s with
  | nil => simp [splitL]
  | cons c cs =>
    by_cases hc : c = sep
    · simp [splitL, hc]
    · simp only [splitL, hc, if_false]; split <;> simp

theorem splitL_no_sep (sep : Char) (a : List Char) (h : sep ∉ a) : splitL sep a = [a] := by
  induction a with
  | nil => rfl
  | cons c cs ih =>
    simp at h
    have hc : c ≠ sep := fun e => h.1 e.symm
    simp [splitL, hc, ih h.2]

theorem splitL_append (sep : Char) (a b : List Char) (h : sep ∉ a) :
    splitL sep (a ++ sep :: b) = a :: splitL sep b := by
  induction a with
  | nil => simp [splitL]
  | cons c cs ih =>
    simp at h
    have hc : c ≠ sep := fun e => h.1 e.symm
    simp [splitL, hc, ih h.2]

theorem joinL_splitL (sep : Char) (s : List Char) : joinL sep (splitL sep s) = s := by
  induction s with
  | nil => rfl
  | cons c cs ih =>
    have hne := splitL_ne_nil sep cs
    by_cases hc : c = sep
    · simp only [splitL, hc, if_true]
      cases h : splitL sep cs with
      | nil => exact absurd h hne
      | cons w ws => rw [h] at ih; simp [joinL, ih]
    · simp only [splitL, hc, if_false]
      cases h : splitL sep cs with
      | nil => exact absurd h hne
      | cons w ws =>
        rw [h] at ih
        cases ws with
        | nil => simp [joinL] at ih ⊢; exact ih
        | cons v vs => simp [joinL] at ih ⊢; exact ih

theorem splitL_joinL (sep : Char) (ws : List (List Char)) (hne : ws ≠ [])
    (h : ∀ w ∈ ws, sep ∉ w) : splitL sep (joinL sep ws) = ws := by
  induction ws with
  | nil => exact absurd rfl hne
  | cons w ws ih =>
    cases ws with
    | nil => simp [joinL]; exact splitL_no_sep sep w (h w (by simp))
    | cons v vs =>
      simp only [joinL]
      rw [splitL_append sep w _ (h w (by simp)), ih (by simp)]
      intro x hx; exact h x (by simp at hx ⊢; exact Or.inr hx)

theorem not_mem_splitL (sep : Char) (s : List Char) : ∀ w ∈ splitL sep s, sep ∉ w := by
  induction s with
  | nil => simp [splitL]
  | cons c cs ih =>
    by_cases hc : c = sep
    · simp [splitL, hc]; exact ih
    · simp only [splitL, hc, if_false]
      cases h : splitL sep cs with
      | nil => simp; exact fun e => hc e.symm
      | cons w ws =>
        rw [h] at ih
        intro x hx
        simp only [List.mem_cons] at hx
        rcases hx with rfl | hx
        · have := ih w (by simp)
          simp [this]; exact fun e => hc e.symm
        · exact ih x (by simp [hx])

theorem dictGet_set {α : Type} (d : Dict α) (k k' : String) (v : α) :
    dictGet (dictSet d k v) k' = if k = k' then some v else dictGet d k' := by
  induction d with
  | nil => simp [dictSet, dictGet]
  | cons p d ih =>
    obtain ⟨a, b⟩ := p
    by_cases h : a = k
    · subst h
      by_cases h' : a = k' <;> simp [dictSet, dictGet, h']
    · simp only [dictSet, h, if_false, dictGet, ih]
      by_cases h' : a = k' <;> simp [h']
      intro e; exact absurd (h'.trans e.symm) h

theorem dictGet_mem {α : Type} (d : Dict α) (k : String) (v : α) (h : dictGet d k = some v) :
    (k, v) ∈ d := by
  induction d with
  | nil => simp [dictGet] at h
  | cons p d ih =>
    obtain ⟨a, b⟩ := p
    by_cases h' : a = k
    · subst h'; simp [dictGet] at h; simp [h]
    · simp [dictGet, h'] at h; simp [ih h]

end Py
end Verif
