import Verif.Codec.ScalingRows
import Verif.Props.CodecCompu
import Verif.Props.Num
/-
C65: data constraints, conversions and value tables mean the same when they are read back.
-/
namespace Verif.Props.CodecScaling
open Verif.Py Verif.Num Verif.Enums Verif.Codec Verif.Codec.Spec Verif.Codec.Scaling
open Verif.Codec.ScalingSpec Verif.Codec.ConstantSpec

/-- C65: written and read, everything with limits in constraints and computation methods accepts
exactly the numbers it accepted before (and raises the same exceptions), wherever it is. -/
theorem C65_limits : ∀ x ∈ CodecCompu.forms, ∀ v, WellFormed x.1 v →
    ∃ text v', writeStrElem x.2.1 v = .ok text ∧ readStrElem x.2.2 text = .ok v' ∧
      ∀ p n, checkAt p v' n = checkAt p v n := by
  intro x hx v hv
  obtain ⟨text, v', h1, h2, h3, -⟩ := CodecCompu.C24_survives_partial x hx v hv
  refine ⟨text, v', h1, h2, fun p n => ?_⟩
  refine checkAt_back CodecCompu.lost ?_ n p v v' (.inl ⟨_, hv.1⟩) h3
  intro c k hk
  unfold CodecCompu.lost at hk
  split at hk
  · exact ⟨rfl, by simpa using hk⟩
  · cases hk

/-- The scale constraint has no upper limit. -/
example : checkAt [.attr "rules", .item 0, .attr "internal"] CodecCompu.constraint (.float (.fin false 25 0)) =
      some (.ok true) ∧
    checkAt [.attr "rules", .item 0, .attr "internal"] CodecCompu.constraint (.float (.fin false 255 (-1))) =
      some (.ok false) ∧
    checkAt [.attr "rules", .item 0, .attr "internal", .attr "scale_constrs", .item 0]
      CodecCompu.constraint (.int 0) = some (.ok false) ∧
    checkAt [.attr "rules", .item 0, .attr "internal", .attr "scale_constrs", .item 0]
      CodecCompu.constraint (.int 1) = some (.error .typeError) ∧
    checkAt [.attr "rules", .item 0] CodecCompu.constraint (.int 1) = none := by decide +kernel

/-- C65: the numbers compared, here and in what follows, are those that the Python numbers are. -/
theorem C65_numbers (n : PyNum) (x : ENum) : value n = x ↔ Means n x := by
  have hp : ∀ k : Nat, (10 : Rat) ^ k ≠ 0 := fun k => by
    induction k with
    | zero => decide
    | succ k ih => rw [Rat.pow_succ]; grind
  have hw : ∀ (neg : Bool) (c k : Nat), value (.float (.fin neg c (k : Int))) =
      .fin ((if neg then (-1 : Rat) else 1) * c * 10 ^ k) := by
    intro neg c k
    have h0 : (0 : Int) ≤ (k : Int) := by omega
    simp only [value, if_pos h0, Int.toNat_natCast]
    have hc : (((c : Nat) : Int) : Rat) = (c : Rat) := rfl
    cases neg <;> simp [hc] <;> grind
  have hf : ∀ (neg : Bool) (c k : Nat), 0 < k → ∃ q, value (.float (.fin neg c (-(k : Int)))) = .fin q ∧
      q * 10 ^ k = (if neg then (-1 : Rat) else 1) * c := by
    intro neg c k hk
    have h0 : ¬ (0 : Int) ≤ -(k : Int) := by omega
    simp only [value, if_neg h0, Int.neg_neg, Int.toNat_natCast]
    refine ⟨_, rfl, ?_⟩
    rw [Rat.mkRat_eq_div]
    have := hp k
    have hc : (((c : Nat) : Int) : Rat) = (c : Rat) := rfl
    cases neg <;> simp [hc] <;> grind
  constructor
  · rintro rfl
    cases n with
    | int i => exact .int i
    | float f =>
      cases f with
      | nan => exact .nan
      | inf neg => cases neg <;> constructor
      | fin neg c e =>
        rcases Int.lt_or_le e 0 with he | he
        · obtain ⟨k, hk⟩ := Int.eq_ofNat_of_zero_le (a := -e) (by omega)
          have : e = -(k : Int) := by omega
          subst this
          obtain ⟨q, h1, h2⟩ := hf neg c k (by omega)
          rw [h1]
          exact .fraction _ _ _ _ (by omega) h2
        · obtain ⟨k, rfl⟩ := Int.eq_ofNat_of_zero_le he
          rw [hw]
          exact .whole _ _ _ _ rfl
  · intro h
    cases h with
    | int i => rfl
    | plusInf => rfl
    | minusInf => rfl
    | nan => rfl
    | whole neg c k q h => rw [hw, h]
    | fraction neg c k q hk h =>
      obtain ⟨q', h1, h2⟩ := hf neg c k hk
      rw [h1]
      have := hp k
      congr 1
      grind

/-- 125.5 -/
example : Means (.float (.fin false 1255 (-1))) (.fin (251 / 2)) :=
  .fraction false 1255 1 _ (by decide) (by decide +kernel)

/-- The limits of the arguments contain the number. -/
def Inside (a : Args) (n : PyNum) : Prop :=
  ∃ lo hi, a.lower_limit = some lo ∧ a.upper_limit = some hi ∧
    Num.AboveLower a.lower_limit_type (value lo) (value n) ∧ Num.BelowUpper a.upper_limit_type (value hi) (value n)

theorem inside_iff {a : Args} {lo hi n : PyNum} (hlo : a.lower_limit = some lo)
    (hhi : a.upper_limit = some hi) : Inside a n ↔
      Num.AboveLower a.lower_limit_type (value lo) (value n) ∧
      Num.BelowUpper a.upper_limit_type (value hi) (value n) := by
  simp [Inside, hlo, hhi]

/-- C65: a constraint made with `make_physical` that is written and read back accepts exactly the
numbers within the limits given (none of them NaN), and its other attributes are those given. -/
theorem C65_physical (name : String) (hn : goodText name = true) (a : Args) (ha : goodArgs a = true) :
    ∃ text o fs, writeStrElem none (makePhysical name a) = .ok text ∧ readStrElem none text = .ok o ∧
      follow [.attr "rules", .item 0, .attr "physical"] o = some (.obj .PhysicalConstraint fs) ∧
      (∀ lo hi n, a.lower_limit = some lo → a.upper_limit = some hi → value lo ≠ .nan →
        value hi ≠ .nan → value n ≠ .nan → ∃ b, check fs n = .ok b ∧ (b = true ↔ Inside a n)) ∧
      (∀ k ∈ givenNames, Arrives (given a k) (fs.lookup k)) ∧
      Arrives (a.unit_ref.map .ref) (fs.lookup "unit_ref") := by
  obtain ⟨text, h1, h2⟩ := elem_rt (by decide +kernel : topOk .DataConstraint none none = true)
    (makePhysical_ok hn ha)
  have hb := way_back (p := [.attr "rules", .item 0, .attr "physical"]) (by rfl)
    (same_norm false (makePhysical name a))
  have hf : follow [.attr "rules", .item 0, .attr "physical"] (makePhysical name a) =
      some (.obj .PhysicalConstraint (madeFields a (a.unit_ref.map .ref))) := by
    rw [← physical_made]; rfl
  rw [hf] at hb
  generalize hw : follow _ (normVal tables false (makePhysical name a)) = w at hb
  cases hb with
  | some hb =>
    obtain ⟨gs, rfl, g1, g2, g3⟩ := made_back a _ hb
    refine ⟨text, _, gs, h1, h2, hw, fun lo hi n hlo hhi n1 n2 n3 => ?_, g2, g3⟩
    rw [g1 lo hi n hlo hhi, inside_iff hlo hhi]
    exact Num.C13_interval_partial _ _ _ _ rfl rfl n1 n2 n3

/-- C65: the same for `make_internal`. -/
theorem C65_internal (name : String) (hn : goodText name = true) (a : Args) (ha : goodArgs a = true) :
    ∃ text o fs, writeStrElem none (makeInternal name a) = .ok text ∧ readStrElem none text = .ok o ∧
      follow [.attr "rules", .item 0, .attr "internal"] o = some (.obj .InternalConstraint fs) ∧
      (∀ lo hi n, a.lower_limit = some lo → a.upper_limit = some hi → value lo ≠ .nan →
        value hi ≠ .nan → value n ≠ .nan → ∃ b, check fs n = .ok b ∧ (b = true ↔ Inside a n)) ∧
      ∀ k ∈ givenNames, Arrives (given a k) (fs.lookup k) := by
  obtain ⟨text, h1, h2⟩ := elem_rt (by decide +kernel : topOk .DataConstraint none none = true)
    (makeInternal_ok hn ha)
  have hb := way_back (p := [.attr "rules", .item 0, .attr "internal"]) (by rfl)
    (same_norm false (makeInternal name a))
  have hf : follow [.attr "rules", .item 0, .attr "internal"] (makeInternal name a) =
      some (.obj .InternalConstraint (madeFields a none)) := by
    rw [← internal_made]; rfl
  rw [hf] at hb
  generalize hw : follow _ (normVal tables false (makeInternal name a)) = w at hb
  cases hb with
  | some hb =>
    obtain ⟨gs, rfl, g1, g2, -⟩ := made_back a _ hb
    refine ⟨text, _, gs, h1, h2, hw, fun lo hi n hlo hhi n1 n2 n3 => ?_, g2⟩
    rw [g1 lo hi n hlo hhi, inside_iff hlo hhi]
    exact Num.C13_interval_partial _ _ _ _ rfl rfl n1 n2 n3

/-- Temperatures from -40.0 (included) to 125.5 (not included). -/
def sample : Args where
  lower_limit := some (.float (.fin true 4 1))
  upper_limit := some (.float (.fin false 1255 (-1)))
  upper_limit_type := .open
  max_gradient := some (.int 5)
  monotony := some ⟨"Monotony", "INCREASING"⟩
  scale_constr := [.obj .ScaleConstraint [("label", .str "cold")]]
  unit_ref := some ⟨"UnitRef", "/U/degC", "UNIT"⟩

example : goodArgs sample = true := by decide +kernel

example : Inside sample (.int (-40)) ∧ ¬ Inside sample (.float (.fin false 1255 (-1))) := by
  rw [inside_iff (n := .int (-40)) rfl rfl, inside_iff rfl rfl]
  simp only [Num.AboveLower, Num.BelowUpper, sample, ← Num.le_iff, ← Num.lt_iff]
  decide +kernel

/-- C65: a linear conversion made with `make_rational` that is written and read back gives
`offset + factor * x` for every number `x`, within the limits given. -/
theorem C65_rational (name : String) (hn : goodText name = true) (factor offset : PyNum) {f b : Rat}
    (hf : finite factor = some f) (hb : finite offset = some b) (gf : goodFactor factor = true)
    (gb : numOk offset = true) (lower upper : Option Cell) (hl : goodLimit lower = true)
    (hu : goodLimit upper = true) (d : DefaultArg) (hd : goodDefault d = true) (lt ut : IntervalType) :
    ∃ text o r, writeStrElem none (compuMethod name
          (rationalObj (makeRational factor offset lower upper lt ut) d)) = .ok text ∧
      readStrElem none text = .ok o ∧ (∀ x, convert o x = some (b + f * x)) ∧
      rowAt o 0 = some r ∧ r.lower = givenLimit lt lower ∧ r.upper = givenLimit ut upper ∧
      rowAt o 1 = none ∧
      constOf (follow [.attr "int_to_phys", .attr "default_value", .attr "value"] o) = defaultConst d := by
  obtain ⟨text, h1, h2⟩ := elem_rt (by decide +kernel : topOk .CompuMethod none none = true)
    (rational_method_ok hn gf gb hl hu hd lt ut)
  have hs := same_norm false (compuMethod name
    (rationalObj (makeRational factor offset lower upper lt ut) d))
  refine ⟨text, _, ⟨givenLimit lt lower, givenLimit ut upper, none, none⟩, h1, h2, fun x => ?_, ?_, rfl,
    rfl, ?_, ?_⟩
  · rw [convert_back hs, convert_made name factor offset hf hb]
  · rw [rowAt_back hs]
    refine (rowAt_made name [compuScale (compuRational [offset, .float (toFloat factor)] [.int 1]) lower
      upper none lt ut] (defaultOf d) 0 _ lower upper none lt ut rfl).trans ?_
    rfl
  · rw [rowAt_back hs]
    exact rowAt_none name _ _ 1 rfl
  · rw [default_back hs, rationalObj, follow_default, default_const hd]

example : finite (.float (.fin false 5 (-1))) = some (1 / 2) ∧ goodFactor (.float (.fin false 5 (-1))) = true ∧
    finite (.int (-40)) = some (-40) ∧ goodLimit (some (.num (.int 253))) = true ∧
    goodDefault (.cell (.text "invalid")) = true := by decide +kernel

/-- C65: a value table made with `make_value_table` that is written and read back has the lines that
the entries stand for, in their order and no others, and the default value given. -/
theorem C65_table (name : String) (hn : goodText name = true) (es : List Entry)
    (hes : ∀ e ∈ es, goodEntry e = true) (d : DefaultArg) (hd : goodDefault d = true) (al : Bool) :
    ∃ t text o, makeValueTable es d al = .ok t ∧
      writeStrElem none (compuMethod name (tableObj t)) = .ok text ∧ readStrElem none text = .ok o ∧
      (∀ (i : Nat) e, es[i]? = some e → ∃ r, described al i e = some r ∧ rowAt o i = some r) ∧
      (∀ i : Nat, es[i]? = none → rowAt o i = none) ∧
      constOf (follow [.attr "int_to_phys", .attr "default_value", .attr "value"] o) = defaultConst d := by
  obtain ⟨ss, l1, l2, l3⟩ := loop_rows al es 0 hes
  have ht : makeValueTable es d al = .ok ⟨ss, defaultOf d⟩ := by simp [makeValueTable, l1]
  have hrow : ∀ (i : Nat) e, es[i]? = some e → ∃ s, ss[i]? = some s ∧
      goodLimit (some s.lower) = true ∧ goodLimit (some s.upper) = true ∧
      goodCell s.value = true ∧ (∀ t, s.label = some t → goodText t = true) ∧
      described al i e = some ⟨givenLimit s.lowerType (some s.lower), givenLimit s.upperType (some s.upper),
        constOf (follow [.attr "value"] (compuConst s.value)), s.label⟩ := by
    intro i e he
    obtain ⟨s, h1, h2⟩ := l3 i e he
    obtain ⟨s', h3, h4⟩ := entry_row (al := al) (i := i) (hes e (List.mem_of_getElem? he))
    rw [Nat.zero_add, h3] at h2
    injection h2 with h2
    subst h2
    exact ⟨_, h1, h4⟩
  have hw : WellFormed .CompuMethod (compuMethod name (tableObj ⟨ss, defaultOf d⟩)) := by
    refine method_ok hn (computation_ok (fun v hv => ?_) (default_ok hd))
    obtain ⟨s, hs, rfl⟩ := List.mem_map.1 hv
    obtain ⟨i, hi, hi'⟩ := List.mem_iff_getElem.1 hs
    obtain ⟨s', h1, h2, h3, h4, h5, -⟩ := hrow i es[i] (by simp [← l2, hi])
    have : s' = s := by
      rw [List.getElem?_eq_getElem hi, hi'] at h1
      exact (Option.some.inj h1).symm
    subst this
    exact scale_ok ⟨.CompuConst, by simp, const_ok h4⟩ h2 h3 h5 _ _
  obtain ⟨text, h1, h2⟩ := elem_rt (by decide +kernel : topOk .CompuMethod none none = true) hw
  have hs := same_norm false (compuMethod name (tableObj ⟨ss, defaultOf d⟩))
  refine ⟨_, text, _, ht, h1, h2, fun i e he => ?_, fun i he => ?_, ?_⟩
  · obtain ⟨s, g1, -, -, -, -, g2⟩ := hrow i e he
    refine ⟨_, g2, ?_⟩
    rw [rowAt_back hs]
    exact rowAt_made name _ _ i _ _ _ _ _ _ (by simp [g1])
  · rw [rowAt_back hs]
    refine rowAt_none name _ _ i ?_
    have : ss[i]? = none := by
      rw [List.getElem?_eq_none_iff] at he ⊢
      omega
    simp [this]
  · rw [default_back hs, tableObj, follow_default, default_const hd]

/-- Three texts; then a pair and a triple. -/
example : (∀ e ∈ [Entry.text "Off", .text "On", .tuple [.num (.int 2), .text "Error"],
      .tuple [.num (.int 3), .num (.float (.fin false 255 0)), .text "Reserved"]], goodEntry e = true) ∧
    described true 3 (.tuple [.num (.int 3), .num (.float (.fin false 255 0)), .text "Reserved"]) =
      some ⟨some (.fin 3, true), some (.fin 255, true), some (.text "Reserved"), some "Reserved"⟩ := by
  exact ⟨by decide +kernel, by rfl⟩

end Verif.Props.CodecScaling
