import Verif.Swc.ComSpec
/-
Lemmas about the com-spec loop.
-/
set_option linter.unusedSimpArgs false
set_option linter.unusedVariables false
namespace Verif.Swc
open Verif.Py
variable {α : Type}

theorem build_ok {acc : Accepts α} {k : SpecKind} {t : Option String} {args : Args α} {s : ComSpec α}
    (h : build acc k t args = .ok s) : s = ⟨k, t, args⟩ ∧ acc k t args = none := by
  unfold build at h
  split at h
  · simp at h
  · rename_i h'; simp only [Except.ok.injEq] at h; exact ⟨h.symm, h'⟩

theorem build_of_accepts {acc : Accepts α} {k : SpecKind} {t : Option String} {args : Args α}
    (h : acc k t args = none) : build acc k t args = .ok ⟨k, t, args⟩ := by
  simp [build, h]

theorem filter_todo {d : Item} {ds : List Item} {todo : List String} (hd : d.name ∉ ds.map (·.name)) :
    ds.filter (fun x => decide (x.name ∈ todo.filter (· ≠ d.name))) =
      ds.filter (fun x => decide (x.name ∈ todo)) := by
  apply List.filter_congr
  intro x hx
  have : x.name ≠ d.name := by
    intro e; exact hd (List.mem_map.mpr ⟨x, hx, e⟩)
  simp [List.mem_filter, this]

/-- What a successful loop returns. -/
theorem specLoop_ok {acc : Accepts α} {side : Side} {kindOf : Item → SpecKind} {kwargs : Args α}
    (items : List Item) (hn : (items.map (·.name)).Nodup) :
    ∀ {todo : List String} {ss : List (ComSpec α)} {left : List String},
    specLoop acc side kindOf kwargs todo items = .ok (ss, left) →
      ss.map (fun s => (s.kind, s.target, some (Arg.dict s.args))) =
        (items.filter (fun d => decide (d.name ∈ todo))).map
          (fun d => (kindOf d, d.ref, dictGet kwargs d.name)) ∧
      left = todo.filter (fun n => decide (n ∉ items.map (·.name))) := by
  induction items with
  | nil =>
    intro todo ss left h
    simp only [specLoop, Except.ok.injEq, Prod.mk.injEq] at h
    obtain ⟨rfl, rfl⟩ := h
    exact ⟨rfl, by simp [List.filter_eq_self.mpr]⟩
  | cons d ds ih =>
    intro todo ss left h
    rw [List.map_cons, List.nodup_cons] at hn
    unfold specLoop at h
    split at h
    · rename_i hmem
      split at h
      · simp at h
      · rename_i a ha
        split at h
        · simp at h
        · split at h
          · simp at h
          · rename_i args
            split at h
            · simp at h
            · rename_i s hs
              split at h
              · simp at h
              · rename_i ss' left' hrec
                simp only [Except.ok.injEq, Prod.mk.injEq] at h
                obtain ⟨rfl, rfl⟩ := h
                obtain ⟨i1, i2⟩ := ih hn.2 hrec
                obtain ⟨rfl, _⟩ := build_ok hs
                constructor
                · rw [List.map_cons, i1, filter_todo hn.1]
                  simp [List.filter_cons, hmem, ha]
                · rw [i2, List.filter_filter]
                  apply List.filter_congr
                  intro n _
                  by_cases e : n = d.name <;> simp [e]
    · rename_i hmem
      obtain ⟨i1, i2⟩ := ih hn.2 h
      constructor
      · rw [i1]; simp [List.filter_cons, hmem]
      · rw [i2]
        apply List.filter_congr
        intro n hn'
        have : n ≠ d.name := by rintro rfl; exact hmem hn'
        simp [this]

/-- Names that are not the interface's stay unprocessed, repeated element names or not. -/
theorem specLoop_left {acc : Accepts α} {side : Side} {kindOf : Item → SpecKind} {kwargs : Args α}
    (items : List Item) {n : String} (hn : n ∉ items.map (·.name)) :
    ∀ {todo : List String} {ss : List (ComSpec α)} {left : List String}, n ∈ todo →
    specLoop acc side kindOf kwargs todo items = .ok (ss, left) → n ∈ left := by
  induction items with
  | nil =>
    intro todo ss left hm h
    simp only [specLoop, Except.ok.injEq, Prod.mk.injEq] at h
    exact h.2 ▸ hm
  | cons d ds ih =>
    intro todo ss left hm h
    simp only [List.map_cons, List.mem_cons, not_or] at hn
    unfold specLoop at h
    split at h
    · split at h
      · simp at h
      · split at h
        · simp at h
        · split at h
          · simp at h
          · split at h
            · simp at h
            · split at h
              · simp at h
              · rename_i hrec
                simp only [Except.ok.injEq, Prod.mk.injEq] at h
                exact h.2 ▸ ih hn.2 (List.mem_filter.mpr ⟨hm, by simpa using hn.1⟩) hrec
    · exact ih hn.2 hm h

/-- When the loop succeeds. -/
theorem specLoop_succeeds {acc : Accepts α} {side : Side} {kindOf : Item → SpecKind} {kwargs : Args α}
    (items : List Item) :
    ∀ {todo : List String},
    (∀ d ∈ items, d.name ∈ todo → ∃ args, dictGet kwargs d.name = some (.dict args) ∧
      acc (kindOf d) d.ref args = none ∧ (side = .require → d.ref ≠ none)) →
    ∃ r, specLoop acc side kindOf kwargs todo items = .ok r := by
  induction items with
  | nil => intro todo _; exact ⟨_, rfl⟩
  | cons d ds ih =>
    intro todo h
    unfold specLoop
    by_cases hmem : d.name ∈ todo
    · obtain ⟨args, h1, h2, h3⟩ := h d (by simp) hmem
      have ha : ¬ (side = .require ∧ d.ref = none) := fun ⟨x, y⟩ => h3 x y
      obtain ⟨⟨ss, left⟩, hr⟩ := ih (todo := todo.filter (· ≠ d.name))
        (fun x hx hm => h x (by simp [hx]) (List.mem_filter.mp hm).1)
      simp only [hmem, if_true, h1, ha, if_false, build_of_accepts h2, hr]
      exact ⟨_, rfl⟩
    · simp only [hmem, if_false]
      exact ih (fun x hx hm => h x (by simp [hx]) hm)

theorem makeMany_ok {acc : Accepts α} {side : Side} {kindOf : Item → SpecKind} {kwargs : Args α}
    {items : List Item} (hn : (items.map (·.name)).Nodup) {m : Made α}
    (h : makeMany acc side kindOf kwargs items = .ok m) :
    ∃ l, m = .many l ∧
      l.map (fun s => (s.kind, s.target, some (Arg.dict s.args))) =
        (items.filter (fun d => decide (d.name ∈ kwargs.map (·.1)))).map
          (fun d => (kindOf d, d.ref, dictGet kwargs d.name)) ∧
      ∀ n ∈ kwargs.map (·.1), n ∈ items.map (·.name) := by
  unfold makeMany at h
  split at h
  · simp at h
  · rename_i ss hs
    simp only [Except.ok.injEq] at h
    obtain ⟨h1, h2⟩ := specLoop_ok items hn hs
    refine ⟨ss, h.symm, h1, ?_⟩
    intro n hk
    have := (List.filter_eq_nil_iff.mp h2.symm) n hk
    simpa using this
  · simp at h

theorem makeMany_succeeds {acc : Accepts α} {side : Side} {kindOf : Item → SpecKind} {kwargs : Args α}
    {items : List Item} (hn : (items.map (·.name)).Nodup)
    (hk : ∀ n ∈ kwargs.map (·.1), n ∈ items.map (·.name))
    (h : ∀ d ∈ items, d.name ∈ kwargs.map (·.1) → ∃ args, dictGet kwargs d.name = some (.dict args) ∧
      acc (kindOf d) d.ref args = none ∧ (side = .require → d.ref ≠ none)) :
    ∃ l, makeMany acc side kindOf kwargs items = .ok (.many l) := by
  obtain ⟨⟨ss, left⟩, hr⟩ := specLoop_succeeds items h
  have hl := (specLoop_ok items hn hr).2
  have : left = [] := by
    rw [hl, List.filter_eq_nil_iff]
    intro n hn'; simpa using hk n hn'
  subst this
  exact ⟨ss, by simp [makeMany, hr]⟩

theorem allDicts_iff (kwargs : Args α) :
    allDicts kwargs = true ↔ ∀ p ∈ kwargs, ∃ d, p.2 = .dict d := by
  induction kwargs with
  | nil => simp [allDicts]
  | cons p ps ih =>
    obtain ⟨n, v⟩ := p
    cases v with
    | dict d => simp [allDicts, ih]
    | other v => simp [allDicts]

end Verif.Swc
