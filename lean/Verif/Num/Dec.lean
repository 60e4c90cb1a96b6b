/-
Decimal numerals: `str(n)` for a natural number and `int(text)` of a run of digits.
-/
namespace Verif.Num

/-- The decimal digits of `n`, most significant first. -/
def digs (n : Nat) : List Nat :=
  if n < 10 then [n] else digs (n / 10) ++ [n % 10]
termination_by n

/-- `str(n)` for a natural number. -/
def decStr (n : Nat) : List Char := (digs n).map Nat.digitChar

/-- The number a digit list denotes in base `b`. -/
def ofDigs (b : Nat) (l : List Nat) : Nat := l.foldl (fun a d => b * a + d) 0

theorem digs_lt (n : Nat) : ∀ d ∈ digs n, d < 10 := by
  induction n using Nat.strongRecOn with
  | ind n ih =>
    rw [digs]
    split
    · intro d hd; simp at hd; omega
    · intro d hd
      simp only [List.mem_append, List.mem_singleton] at hd
      rcases hd with hd | hd
      · exact ih (n / 10) (by omega) d hd
      · omega

theorem digs_ne_nil (n : Nat) : digs n ≠ [] := by
  rw [digs]; split <;> simp

theorem decStr_ne_nil (n : Nat) : decStr n ≠ [] := by
  simp [decStr, digs_ne_nil]

theorem ofDigs_snoc (b : Nat) (l : List Nat) (d : Nat) : ofDigs b (l ++ [d]) = b * ofDigs b l + d := by
  simp [ofDigs, List.foldl_append]

theorem ofDigs_digs (n : Nat) : ofDigs 10 (digs n) = n := by
  induction n using Nat.strongRecOn with
  | ind n ih =>
    rw [digs]
    split
    · simp [ofDigs]
    · rw [ofDigs_snoc, ih (n / 10) (by omega)]
      omega

theorem digitChar_inj_lt {a b : Nat} (ha : a < 16) (hb : b < 16)
    (h : Nat.digitChar a = Nat.digitChar b) : a = b := by
  have : ∀ a, a < 16 → ∀ b, b < 16 → Nat.digitChar a = Nat.digitChar b → a = b := by decide
  exact this a ha b hb h

theorem map_digitChar_inj : ∀ (l r : List Nat), (∀ d ∈ l, d < 16) → (∀ d ∈ r, d < 16) →
    l.map Nat.digitChar = r.map Nat.digitChar → l = r
  | [], [], _, _, _ => rfl
  | [], _ :: _, _, _, h => by simp at h
  | _ :: _, [], _, _, h => by simp at h
  | a :: l, b :: r, hl, hr, h => by
    simp only [List.map_cons, List.cons.injEq] at h
    rw [digitChar_inj_lt (hl a (by simp)) (hr b (by simp)) h.1,
      map_digitChar_inj l r (fun d hd => hl d (by simp [hd])) (fun d hd => hr d (by simp [hd])) h.2]

theorem digs_inj {a b : Nat} (h : digs a = digs b) : a = b := by
  rw [← ofDigs_digs a, ← ofDigs_digs b, h]

theorem decStr_inj {a b : Nat} (h : decStr a = decStr b) : a = b := by
  apply digs_inj
  apply map_digitChar_inj
  · intro d hd; exact Nat.lt_trans (digs_lt a d hd) (by decide)
  · intro d hd; exact Nat.lt_trans (digs_lt b d hd) (by decide)
  · exact h

theorem digitChar_ne_underscore {d : Nat} (h : d < 10) : Nat.digitChar d ≠ '_' := by
  have : ∀ d, d < 10 → Nat.digitChar d ≠ '_' := by decide
  exact this d h

theorem underscore_not_mem_decStr (n : Nat) : '_' ∉ decStr n := by
  intro h
  simp only [decStr, List.mem_map] at h
  obtain ⟨d, hd, he⟩ := h
  exact digitChar_ne_underscore (digs_lt n d hd) he

theorem decStr_zero : decStr 0 = ['0'] := by
  simp [decStr, digs, Nat.digitChar]

end Verif.Num
