import Verif.Value.Lemmas
/-
C15: building value specifications from Python data.
-/
namespace Verif.Props.Value
open Verif.Py Verif.Num Verif.Value Verif.Value.Spec

/-- C15: `make_value` returns `v` exactly for the data that describes `v`: same label, same
scalar, same elements in the same order, at every depth, classified by type and marker. -/
theorem C15_builds (d : PyData) (v : ValueSpec) : makeValue d = .ok v ↔ Describes d v := by
  constructor
  · intro h
    rcases makeValue_sound d with ⟨v', h1, h2⟩ | ⟨e, h1, -⟩
    · rw [h] at h1; injection h1 with h1; rw [h1]; exact h2
    · rw [h] at h1; simp at h1
  · exact describes_make

/-- C15: `make_value` raises `e` exactly for data whose first fault in reading order is one for
which `e` is documented. -/
theorem C15_rejects (d : PyData) (e : PyErr) : makeValue d = .error e ↔ Faulty d e := by
  constructor
  · intro h
    rcases makeValue_sound d with ⟨v', h1, h2⟩ | ⟨e, h1, h2⟩
    · rw [h] at h1; simp at h1
    · rw [h] at h1; injection h1 with h1; rw [h1]; exact h2
  · exact faulty_make

/-- C15: the outcome is definite: every datum is described or faulty, never both, with one
description or one fault. -/
theorem C15_definite (d : PyData) :
    ((∃ v, Describes d v) ∨ ∃ e, Faulty d e) ∧ ¬ ((∃ v, Describes d v) ∧ ∃ e, Faulty d e) ∧
    (∀ v v', Describes d v → Describes d v' → v = v') ∧
    (∀ e e', Faulty d e → Faulty d e' → e = e') := by
  refine ⟨?_, ?_, ?_, ?_⟩
  · rcases makeValue_sound d with ⟨v, -, h⟩ | ⟨e, -, h⟩
    · exact Or.inl ⟨v, h⟩
    · exact Or.inr ⟨e, h⟩
  · rintro ⟨⟨v, hv⟩, e, he⟩
    have h1 := describes_make hv
    rw [faulty_make he] at h1
    simp at h1
  · intro v v' h h'
    have h1 := describes_make h
    rw [describes_make h'] at h1
    injection h1 with h1
    exact h1.symm
  · intro v v' h h'
    have h1 := faulty_make h
    rw [faulty_make h'] at h1
    injection h1 with h1
    exact h1.symm

example : makeValue (.tuple [.str "Rec", .list [.str "Record", .tuple [.str "x", .num (.int 1)],
      .list [.str "a", .str "t", .tuple [.str "na", .none, .num (.int 255)]]]]) =
    .ok (.record (some "Rec") [.numerical (some "x") (some (.num (.int 1))),
      .array none [.text none (some "t"), .notAvailable (some "na") (.num (.int 255))]]) := by
  simp [makeValue, makeFromArgs, makeAll, mkNotAvailable,
    show isArrayMarker "Record" = false by decide, show isRecordMarker "Record" = true by decide,
    show isArrayMarker "a" = true by decide]

example : makeValue (.list [.str "A", .num (.int 1), .list [.str "R", .tuple []], .other "object"]) =
    .error .indexError := by
  simp [makeValue, makeFromArgs, makeAll,
    show isArrayMarker "A" = true by decide, show isArrayMarker "R" = false by decide,
    show isRecordMarker "R" = true by decide]

/-! Every nested value specification made of numbers, texts, not-available values, arrays and
records can be expressed as Python data. -/

mutual
/-- Value specifications `make_value` can be asked for: no constant references, values present,
pattern not negative, and unlabelled not-available values without pattern. -/
inductive Expressible : ValueSpec → Prop
  | text {l s} : Expressible (.text l (some s))
  | numerical {l n} : Expressible (.numerical l (some n))
  | notAvailable {l p} : ¬ NegativeInt p → Expressible (.notAvailable (some l) p)
  | notAvailableBare : Expressible (.notAvailable none .none)
  | array {l vs} : ExpressibleAll vs → Expressible (.array l vs)
  | record {l vs} : ExpressibleAll vs → Expressible (.record l vs)
inductive ExpressibleAll : List ValueSpec → Prop
  | nil : ExpressibleAll []
  | cons {v vs} : Expressible v → ExpressibleAll vs → ExpressibleAll (v :: vs)
end

theorem described_of {l d v} (hn : NotTuple d) (h : Content l d .none v) :
    ∃ d', Describes d' v := by
  cases l with
  | none => exact ⟨d, .plain hn h⟩
  | some l => exact ⟨_, .labelled h⟩

theorem arrayMarker_A : ArrayMarker "A" := by rw [← isArrayMarker_iff]; decide
theorem recordMarker_R : RecordMarker "R" := by rw [← isRecordMarker_iff]; decide

mutual
theorem expressible_described {v} : Expressible v → ∃ d, Describes d v
  | .text => described_of (by trivial) .text
  | @Expressible.numerical l n => by
    cases n with
    | bool b => exact described_of (by trivial) .bool
    | num n => exact described_of (by trivial) .number
  | .notAvailable h => ⟨_, .patterned (.absent h)⟩
  | .notAvailableBare => ⟨.none, .plain trivial (.absent (by rintro ⟨i, -, h⟩; simp at h))⟩
  | .array h => by
    obtain ⟨ds, hds⟩ := expressibleAll_described h
    exact described_of (by trivial) (.array arrayMarker_A hds)
  | .record h => by
    obtain ⟨ds, hds⟩ := expressibleAll_described h
    exact described_of (by trivial) (.record recordMarker_R hds)
theorem expressibleAll_described {vs} : ExpressibleAll vs → ∃ ds, DescribesAll ds vs
  | .nil => ⟨[], .nil⟩
  | .cons h t => by
    obtain ⟨d, hd⟩ := expressible_described h
    obtain ⟨ds, hds⟩ := expressibleAll_described t
    exact ⟨d :: ds, .cons hd hds⟩
end

/-- C15: every such value specification is what some Python data builds. -/
theorem C15_expressive (v : ValueSpec) (h : Expressible v) : ∃ d, makeValue d = .ok v := by
  obtain ⟨d, hd⟩ := expressible_described h
  exact ⟨d, describes_make hd⟩

/-- C15 for init values: None stays None, existing value specifications are kept, constant
references are wrapped, scalars, lists and tuples are built, anything else raises TypeError. -/
theorem C15_init_value (a : InitArg) :
    match a with
    | .spec v => makeValueWithCheck a = .ok (some v)
    | .constantRef r => makeValueWithCheck a = .ok (some (.constRef none (some r)))
    | .data .none => makeValueWithCheck a = .ok none
    | .data d => (∀ v, makeValueWithCheck a = .ok (some v) ↔ Describes d v) ∧
        (∀ e, makeValueWithCheck a = .error e ↔ Faulty d e) ∧ makeValueWithCheck a ≠ .ok none := by
  cases a with
  | spec v => rfl
  | constantRef r => rfl
  | data d =>
    have key : makeValueWithCheck (.data d) = (makeValue d).map some →
        (∀ v, makeValueWithCheck (.data d) = .ok (some v) ↔ Describes d v) ∧
        (∀ e, makeValueWithCheck (.data d) = .error e ↔ Faulty d e) ∧
        makeValueWithCheck (.data d) ≠ .ok none := by
      intro h
      rw [h]
      simp only [← C15_builds, ← C15_rejects]
      cases makeValue d <;> simp [Except.map]
    cases d with
    | none => rfl
    | other c =>
      apply key
      rw [makeValue_notTuple _ (by trivial), makeFromArgs]
      rfl
    | bool b => exact key rfl
    | num n => exact key rfl
    | str s => exact key rfl
    | list xs => exact key rfl
    | tuple xs => exact key rfl

end Verif.Props.Value
