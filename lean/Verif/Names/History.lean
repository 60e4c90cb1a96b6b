import Verif.Names.Lemmas
/-
Uniqueness along histories of event creations.
-/
namespace Verif.Names
open Verif.Num

/-- `n_0_0…_0`, `k` times. -/
def zeros (n : Name) : Nat → Name
  | 0 => n
  | k + 1 => indexed (zeros n k) 0

theorem zeros_indexed (n : Name) (k : Nat) : zeros (indexed n 0) k = zeros n (k + 1) := by
  induction k with
  | zero => rfl
  | succ k ih => simp only [zeros] at ih ⊢; rw [ih]

theorem zeros_tail (n : Name) (k : Nat) :
    ∃ rest, zeros n k = n ++ rest ∧ ∀ c cs, rest = c :: cs → c = '_' := by
  induction k with
  | zero => exact ⟨[], by simp [zeros], by simp⟩
  | succ k ih =>
    obtain ⟨rest, h, hr⟩ := ih
    refine ⟨rest ++ ['_', '0'], ?_, ?_⟩
    · simp [zeros, h, indexed, decStr_zero]
    · intro c cs hc
      cases rest with
      | nil => simp at hc; exact hc.1.symm
      | cons d ds =>
        simp at hc
        rw [← hc.1]; exact hr d ds rfl

theorem numbered_zeros (D : Digits) (b : Name) (j k : Nat) :
    Numbered D b (zeros (indexed b j) k) j := by
  obtain ⟨rest, h, hr⟩ := zeros_tail (indexed b j) k
  unfold Numbered
  rw [h]
  apply match_indexed
  intro c cs hc
  rw [hr c cs hc]; exact D.underscore

/-- No two names equal, and no name together with a zero-suffixed form of it. -/
def Good (L : List Name) : Prop := L.Nodup ∧ ∀ n ∈ L, ∀ k, zeros n (k + 1) ∉ L

/-- The base name does not itself end in "_0". -/
def EndsZero (b : Name) : Prop := ∃ c, b = c ++ ['_', '0']

theorem good_nil : Good [] := by simp [Good]

theorem nodup_replace {p s : List Name} {b x : Name} (h : (p ++ b :: s).Nodup)
    (hx : x ∉ p ++ b :: s) : (p ++ x :: s).Nodup := by
  simp only [List.nodup_append, List.nodup_cons, List.mem_append, List.mem_cons, not_or] at h hx ⊢
  refine ⟨h.1, ⟨hx.2.2, h.2.1.2⟩, ?_⟩
  intro a ha c hc
  rcases hc with rfl | hc
  · rintro rfl; exact hx.1 ha
  · exact h.2.2 a ha c (Or.inr hc)

theorem good_rename {p s : List Name} {b : Name} (h : Good (p ++ b :: s)) :
    Good (p ++ indexed b 0 :: s) := by
  have hb : b ∈ p ++ b :: s := by simp
  have h0 : indexed b 0 ∉ p ++ b :: s := h.2 b hb 0
  have hbnot : b ∉ p ++ indexed b 0 :: s := by
    have hn := h.1
    simp only [List.nodup_append, List.nodup_cons, List.mem_cons] at hn
    simp only [List.mem_append, List.mem_cons, not_or]
    refine ⟨?_, fun e => indexed_ne_self b 0 e.symm, hn.2.1.1⟩
    intro hp
    exact hn.2.2 b hp b (Or.inl rfl) rfl
  have hsub : ∀ x, x ∈ p ++ indexed b 0 :: s → x = indexed b 0 ∨ x ∈ p ++ b :: s := by
    intro x hx
    simp only [List.mem_append, List.mem_cons] at hx ⊢
    rcases hx with hx | hx | hx
    · exact Or.inr (Or.inl hx)
    · exact Or.inl hx
    · exact Or.inr (Or.inr (Or.inr hx))
  refine ⟨nodup_replace h.1 h0, ?_⟩
  intro n hn k hk
  rcases hsub n hn with rfl | hn'
  · rw [zeros_indexed] at hk
    rcases hsub _ hk with he | hk'
    · have := congrArg List.length he
      obtain ⟨rest, hr, -⟩ := zeros_tail (indexed b 0) k
      rw [← zeros_indexed] at he
      simp only [zeros] at he
      rw [hr] at he
      have := congrArg List.length he
      simp [indexed] at this
    · exact h.2 b hb (k + 1) hk'
  · rcases hsub _ hk with he | hk'
    · simp only [zeros] at he
      have hz := (indexed_inj he).1
      cases k with
      | zero => simp only [zeros] at hz; rw [hz] at hn; exact hbnot hn
      | succ k => exact h.2 n hn' k (by rw [hz]; exact hb)
    · exact h.2 n hn' k hk'

theorem good_snoc {L : List Name} {x : Name} (h : Good L) (hx : x ∉ L)
    (h1 : ∀ k, zeros x (k + 1) ∉ L) (h2 : ∀ n ∈ L, ∀ k, zeros n (k + 1) ≠ x) :
    Good (L ++ [x]) := by
  constructor
  · rw [List.nodup_append]
    refine ⟨h.1, by simp, ?_⟩
    intro a ha b hb
    simp only [List.mem_singleton] at hb
    subst hb
    rintro rfl; exact hx ha
  · intro n hn k hk
    simp only [List.mem_append, List.mem_singleton] at hn hk
    rcases hn with hn | rfl
    · rcases hk with hk | hk
      · exact h.2 n hn k hk
      · exact h2 n hn k hk
    · rcases hk with hk | hk
      · exact h1 k hk
      · obtain ⟨rest, hr, -⟩ := zeros_tail n k
        simp only [zeros] at hk
        rw [hr] at hk
        have := congrArg List.length hk
        simp [indexed] at this

/-- The new number is above every number in use, also in the renamed list. -/
theorem indexed_fresh {D : Digits} {names : List Name} {b : Name} {h : Nat}
    (hh : ∀ n ∈ names, ∀ k, Numbered D b n k → k ≤ h) (k : Nat) :
    zeros (indexed b (h + 1)) k ∉ names := by
  intro hm
  have := hh _ hm _ (numbered_zeros D b (h + 1) k)
  omega

theorem zeros_ne_indexed_succ (n b : Name) (h k : Nat) :
    zeros n (k + 1) ≠ indexed b (h + 1) := by
  intro he
  simp only [zeros] at he
  have := (indexed_inj he).2
  omega

/-- Adding `b_(h+1)` keeps the list good. -/
theorem good_add_indexed {D : Digits} {L : List Name} {b : Name} {h : Nat} (hg : Good L)
    (hh : ∀ n ∈ L, ∀ k, Numbered D b n k → k ≤ h) : Good (L ++ [indexed b (h + 1)]) :=
  good_snoc hg (indexed_fresh hh 0) (fun k => indexed_fresh hh (k + 1))
    (fun n _ k => zeros_ne_indexed_succ n b h k)

theorem numbered_rename {D : Digits} {p s : List Name} {b : Name} {h : Nat}
    (hh : ∀ n ∈ p ++ b :: s, ∀ k, Numbered D b n k → k ≤ h) :
    ∀ n ∈ p ++ indexed b 0 :: s, ∀ k, Numbered D b n k → k ≤ h := by
  intro n hn k hk
  simp only [List.mem_append, List.mem_cons] at hn
  rcases hn with hn | rfl | hn
  · exact hh n (by simp [hn]) k hk
  · have h0 : Numbered D b (indexed b 0) 0 := numbered_zeros D b 0 0
    unfold Numbered at h0 hk
    rw [h0] at hk
    simp at hk
    omega
  · exact hh n (by simp [hn]) k hk

/-- One event operation keeps the list good. -/
theorem good_step (D : Digits) {L : List Name} (hg : Good L) (op : EventOp) (b : Name)
    (hop : op = .create b ∨ op = .failed b) (hp : Plain b) (hz : ¬ EndsZero b) :
    ∃ L', eventStep D L op = some L' ∧ Good L' := by
  obtain ⟨h, hh, hc⟩ := makeUnique_cases D L b hp
  rcases hc with ⟨hb, hnum, hr⟩ | ⟨hb, hr⟩ | ⟨p, s, rfl, hs, hr⟩
  · rcases hop with rfl | rfl
    · refine ⟨L ++ [b], by simp [eventStep, hr], good_snoc hg hb ?_ ?_⟩
      · intro k hk
        have h0 := numbered_zeros D b 0 k
        rw [zeros_indexed] at h0
        exact hnum _ hk 0 h0
      · intro n _ k he
        refine hz ⟨zeros n k, ?_⟩
        rw [indexed_zero]; exact he.symm
    · exact ⟨L, by simp [eventStep, hr], hg⟩
  · rcases hop with rfl | rfl
    · exact ⟨_, by simp [eventStep, hr], good_add_indexed hg hh⟩
    · exact ⟨L, by simp [eventStep, hr], hg⟩
  · have hg' := good_rename hg
    rcases hop with rfl | rfl
    · refine ⟨(p ++ indexed b 0 :: s) ++ [indexed b (h + 1)], by simp [eventStep, hr], ?_⟩
      exact good_add_indexed hg' (numbered_rename hh)
    · exact ⟨_, by simp [eventStep, hr], hg'⟩

end Verif.Names
