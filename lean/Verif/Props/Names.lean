import Verif.Names.History
/-
C10, C11, C12: generated names.
-/
namespace Verif.Props.Names
open Verif Verif.Num Verif.Names

/-- `base_k` as text. -/
def numbered (base : Name) (k : Nat) : Name := base ++ '_' :: decStr k

/-- The text form used above is the usual decimal one. -/
example : numbered "Timer".toList 105 = "Timer_105".toList := by decide +kernel

/-! ### C10 -/

/-- C10: for any list of names and any base name without regular expression characters
(every AUTOSAR short name), the returned name is not the name of any element of the list as
it is after the call. -/
theorem C10_fresh_partial (D : Digits) (names : List Name) (base : Name) (hp : Plain base) :
    ∃ names' u, makeUnique D names base = some (names', u) ∧ u ∉ names' := by
  obtain ⟨h, hh, hc⟩ := makeUnique_cases D names base hp
  rcases hc with ⟨hb, -, hr⟩ | ⟨hb, hr⟩ | ⟨p, s, rfl, hs, hr⟩
  · exact ⟨_, _, hr, hb⟩
  · exact ⟨_, _, hr, indexed_fresh hh 0⟩
  · exact ⟨_, _, hr, indexed_fresh (numbered_rename hh) 0⟩

/-- C10: what the call may change: nothing, unless some element has exactly the base name;
then the last such element gets the suffix "_0" and all others keep their names.  The
returned name is the base name itself or a positively numbered form of it. -/
theorem C10_effect_partial (D : Digits) (names : List Name) (base : Name) (hp : Plain base) :
    ∃ names' u, makeUnique D names base = some (names', u) ∧
      (base ∉ names → names' = names) ∧
      (base ∈ names → ∃ p s, names = p ++ base :: s ∧ base ∉ s ∧
        names' = p ++ numbered base 0 :: s) ∧
      (u = base ∧ base ∉ names ∨ ∃ k, u = numbered base (k + 1)) := by
  obtain ⟨h, hh, hc⟩ := makeUnique_cases D names base hp
  rcases hc with ⟨hb, -, hr⟩ | ⟨hb, hr⟩ | ⟨p, s, rfl, hs, hr⟩
  · exact ⟨_, _, hr, fun _ => rfl, fun h => absurd h hb, Or.inl ⟨rfl, hb⟩⟩
  · exact ⟨_, _, hr, fun _ => rfl, fun h => absurd h hb, Or.inr ⟨h, rfl⟩⟩
  · exact ⟨_, _, hr, fun hn => absurd (by simp) hn, fun _ => ⟨p, s, rfl, hs, rfl⟩,
      Or.inr ⟨h, rfl⟩⟩

example : Plain "TMT_Run_10ms".toList := by decide

example : makeUnique asciiDigits ["Run".toList, "Run_4x".toList, "Other".toList] "Run".toList =
    some (["Run_0".toList, "Run_4x".toList, "Other".toList], "Run_5".toList) := by decide +kernel

/-- Finding for C10: with regular expression characters in the base name the result need not
be fresh.  The name "a+b" is not matched by its own expression, so the numbered forms are not
seen. -/
theorem C10_regex_counterexample :
    ∃ names base u names', makeUnique asciiDigits names base = some (names', u) ∧ u ∈ names' :=
  ⟨["a+b_0".toList, "a+b_1".toList, "a+b".toList], "a+b".toList, "a+b_1".toList,
    ["a+b_0".toList, "a+b_1".toList, "a+b_0".toList], by decide +kernel, by decide +kernel⟩

/-! ### C11 -/

/-- C11: if no base name used ends in "_0", the names of all events are pairwise distinct
after any history of event creations, including ones that fail after choosing a name. -/
theorem C11_unique_partial (D : Digits) (ops : List EventOp)
    (h : ∀ op ∈ ops, ∀ b, (op = .create b ∨ op = .failed b) →
      Plain b ∧ ¬ ∃ c, b = c ++ "_0".toList) :
    ∃ names, eventRun D [] ops = some names ∧ names.Nodup := by
  suffices H : ∀ L, Good L → ∃ names, eventRun D L ops = some names ∧ Good names by
    obtain ⟨n, h1, h2⟩ := H [] good_nil
    exact ⟨n, h1, h2.1⟩
  induction ops with
  | nil => intro L hL; exact ⟨L, rfl, hL⟩
  | cons op rest ih =>
    intro L hL
    obtain ⟨b, hb⟩ : ∃ b, op = .create b ∨ op = .failed b := by
      cases op with
      | create b => exact ⟨b, Or.inl rfl⟩
      | failed b => exact ⟨b, Or.inr rfl⟩
    obtain ⟨hp, hz⟩ := h op (by simp) b hb
    obtain ⟨L', hs, hg⟩ := good_step D hL op b hb hp hz
    obtain ⟨n, h1, h2⟩ := ih (fun o ho => h o (by simp [ho])) L' hg
    exact ⟨n, by simp [eventRun, hs, h1], h2⟩

example : eventRun asciiDigits [] [.create "TMT_Run".toList, .create "TMT_Run".toList,
    .failed "IT_Init".toList, .create "TMT_Run".toList, .create "TMT_Run_1".toList] =
    some ["TMT_Run_0".toList, "TMT_Run_1_0".toList, "TMT_Run_2".toList, "TMT_Run_1_1".toList] := by
  decide +kernel

/-- C11, exactly when one creation breaks uniqueness: when the base name and its "_0" form
are both already there. -/
theorem C11_step_exact (D : Digits) (names : List Name) (base : Name) (hp : Plain base)
    (hn : names.Nodup) :
    ∃ names', eventStep D names (.create base) = some names' ∧
      (names'.Nodup ↔ ¬ (base ∈ names ∧ numbered base 0 ∈ names)) := by
  obtain ⟨h, hh, hc⟩ := makeUnique_cases D names base hp
  have snoc : ∀ (L : List Name) (x : Name), (L ++ [x]).Nodup ↔ L.Nodup ∧ x ∉ L := by
    intro L x
    rw [List.nodup_append]
    constructor
    · rintro ⟨h1, -, h3⟩
      exact ⟨h1, fun hx => h3 x hx x (by simp) rfl⟩
    · rintro ⟨h1, h2⟩
      refine ⟨h1, by simp, ?_⟩
      intro a ha b hb
      simp only [List.mem_singleton] at hb
      subst hb
      rintro rfl; exact h2 ha
  rcases hc with ⟨hb, -, hr⟩ | ⟨hb, hr⟩ | ⟨p, s, rfl, hs, hr⟩
  · exact ⟨names ++ [base], by simp [eventStep, hr], by simp [snoc, hn, hb]⟩
  · refine ⟨names ++ [indexed base (h + 1)], by simp [eventStep, hr], ?_⟩
    have := indexed_fresh (D := D) hh 0
    simp only [zeros] at this
    simp [snoc, hn, hb, this]
  · refine ⟨(p ++ indexed base 0 :: s) ++ [indexed base (h + 1)], by simp [eventStep, hr], ?_⟩
    have hf := indexed_fresh (D := D) (numbered_rename hh) 0
    simp only [zeros] at hf
    rw [snoc]
    constructor
    · rintro ⟨h1, -⟩ ⟨-, h0⟩
      simp only [List.mem_append, List.mem_cons] at h0
      simp only [List.nodup_append, List.nodup_cons, List.mem_cons] at h1
      rcases h0 with h0 | h0 | h0
      · exact h1.2.2 _ h0 _ (Or.inl rfl) rfl
      · exact indexed_ne_self base 0 h0
      · exact h1.2.1.1 h0
    · intro hno
      refine ⟨nodup_replace hn ?_, hf⟩
      intro h0
      exact hno ⟨by simp, h0⟩

/-- Finding for C11: "x", "x_0", "x" gives two events called "x_0". -/
theorem C11_counterexample :
    ∃ ops names, eventRun asciiDigits [] ops = some names ∧ ¬ names.Nodup :=
  ⟨[.create "x".toList, .create "x_0".toList, .create "x".toList],
   ["x_0".toList, "x_0".toList, "x_1".toList], by decide +kernel, by decide⟩

/-! ### C12 -/

/-- C12, exactly when one append keeps the names distinct: unless the name and its "_0" form
are both already there. -/
theorem C12_step_exact (D : Digits) (names : List Name) (n : Name) (hp : Plain n)
    (hn : names.Nodup) :
    ∃ names', appendAccess D names n = some names' ∧
      (names'.Nodup ↔ ¬ (n ∈ names ∧ numbered n 0 ∈ names)) := by
  obtain ⟨h, hh, hc⟩ := makeUnique_cases D names n hp
  have snoc : ∀ (L : List Name) (x : Name), (L ++ [x]).Nodup ↔ L.Nodup ∧ x ∉ L := by
    intro L x
    rw [List.nodup_append]
    constructor
    · rintro ⟨h1, -, h3⟩
      exact ⟨h1, fun hx => h3 x hx x (by simp) rfl⟩
    · rintro ⟨h1, h2⟩
      refine ⟨h1, by simp, ?_⟩
      intro a ha b hb
      simp only [List.mem_singleton] at hb
      subst hb
      rintro rfl; exact h2 ha
  rcases hc with ⟨hb, -, hr⟩ | ⟨hb, hr⟩ | ⟨p, s, rfl, hs, hr⟩
  · exact ⟨names ++ [n], by simp [appendAccess, hr], by simp [snoc, hn, hb]⟩
  · exact ⟨names ++ [n], by simp [appendAccess, hr], by simp [snoc, hn, hb]⟩
  · refine ⟨(p ++ indexed n 0 :: s) ++ [n], by simp [appendAccess, hr], ?_⟩
    have hnot : n ∉ p ++ indexed n 0 :: s := by
      simp only [List.nodup_append, List.nodup_cons, List.mem_cons] at hn
      simp only [List.mem_append, List.mem_cons, not_or]
      refine ⟨fun hpn => hn.2.2 n hpn n (Or.inl rfl) rfl,
        fun e => indexed_ne_self n 0 e.symm, hs⟩
    rw [snoc]
    constructor
    · rintro ⟨h1, -⟩ ⟨-, h0⟩
      simp only [List.mem_append, List.mem_cons] at h0
      simp only [List.nodup_append, List.nodup_cons, List.mem_cons] at h1
      rcases h0 with h0 | h0 | h0
      · exact h1.2.2 _ h0 _ (Or.inl rfl) rfl
      · exact indexed_ne_self n 0 h0
      · exact h1.2.1.1 h0
    · intro hno
      exact ⟨nodup_replace hn (fun h0 => hno ⟨by simp, h0⟩), hnot⟩

/-- C12, what holds: appends with pairwise distinct names keep all names (nothing is renamed
and nothing collides). -/
theorem C12_distinct_partial (D : Digits) (ns : List Name) (hp : ∀ n ∈ ns, Plain n)
    (hd : ns.Nodup) : appendRun D [] ns = some ns := by
  suffices H : ∀ L, (L ++ ns).Nodup → appendRun D L ns = some (L ++ ns) by
    simpa using H [] (by simpa using hd)
  clear hd
  induction ns with
  | nil => intro L _; simp [appendRun]
  | cons n rest ih =>
    intro L hL
    obtain ⟨h, hh, hc⟩ := makeUnique_cases D L n (hp n (by simp))
    have hnot : n ∉ L := by
      rw [List.nodup_append] at hL
      intro hn
      exact hL.2.2 n hn n (by simp) rfl
    have hstep : appendAccess D L n = some (L ++ [n]) := by
      rcases hc with ⟨hb, -, hr⟩ | ⟨hb, hr⟩ | ⟨p, s, rfl, hs, hr⟩
      · simp [appendAccess, hr]
      · simp [appendAccess, hr]
      · exact absurd (by simp) hnot
    have := ih (fun m hm => hp m (by simp [hm])) (L ++ [n]) (by simpa using hL)
    simp [appendRun, hstep, this]

/-- Finding for C12: appending any one name three times always gives two elements with the
same name, because the generated name is thrown away. -/
theorem C12_third_append_collides (D : Digits) (n : Name) (hp : Plain n) :
    appendRun D [] [n, n, n] = some [numbered n 0, numbered n 0, n] := by
  have step : ∀ (p s : List Name), n ∉ s →
      appendAccess D (p ++ n :: s) n = some ((p ++ indexed n 0 :: s) ++ [n]) := by
    intro p s hs
    unfold appendAccess makeUnique
    rw [compile_plain n hp]
    have hu := scan_unpatched_last (matchIndex D (plainItems n)) n p s 0 {} (match_base D n) hs
    simp only [Nat.zero_add] at hu
    simp only [Option.map_some, finish, hu]
    rw [← indexed_zero]
    simp
  have h1 : appendAccess D [] n = some [n] := by
    unfold appendAccess makeUnique
    rw [compile_plain n hp]
    simp [finish, scan]
  have h2 : appendAccess D [n] n = some [indexed n 0, n] := by
    simpa using step [] [] (by simp)
  have h3 : appendAccess D [indexed n 0, n] n = some [indexed n 0, indexed n 0, n] := by
    simpa using step [indexed n 0] [] (by simp)
  simp only [appendRun, h1, h2, h3]
  rfl

/-- The statement of C12 is therefore false. -/
theorem C12_counterexample :
    ∃ ns names, appendRun asciiDigits [] ns = some names ∧ ¬ names.Nodup :=
  ⟨["REC_Port_Elem".toList, "REC_Port_Elem".toList, "REC_Port_Elem".toList], _,
    C12_third_append_collides asciiDigits _ (by decide), by simp⟩

/-- Two appends of the same name are still fine. -/
example : appendRun asciiDigits [] ["A".toList, "A".toList] = some ["A_0".toList, "A".toList] := by
  decide +kernel

end Verif.Props.Names
