import Verif.Codec.ScalingProof
/-
Lemmas for C65: computations.
-/
set_option linter.unusedSimpArgs false
set_option linter.unusedVariables false
namespace Verif.Codec.Scaling
open Verif.Py Verif.Num Verif.Enums Verif.Codec.Spec Verif.Codec.ScalingSpec Verif.Codec.ConstantSpec
open Verif.Codec.Constant (fields_ok)

/-- The attributes on the ways of the specification. -/
def wayNames : List String :=
  ["int_to_phys", "compu_scales", "lower_limit", "upper_limit", "content", "value", "label", "rules",
   "physical", "internal", "default_value", "numerator", "denominator", "scale_constrs",
   "max_gradient", "max_diff", "monotony", "unit_ref"]

theorem way_kept : ∀ k ∈ wayNames, ∀ c : Cls, k ∉ lossy c ∧ k ∉ firstOnly c := by
  intro k hk c
  have h : ∀ n < 186, ∀ k ∈ wayNames, k ∉ lossy (Cls.ofNat n) ∧ k ∉ firstOnly (Cls.ofNat n) := by
    decide +kernel
  have := h c.ctorIdx (by cases c <;> decide) k hk
  rwa [Cls.ofNat_ctorIdx] at this

/-- What a way leads to is what is left, if all its attributes are among those. -/
theorem way_back {p : List Step} (hp : (p.all fun | .attr k => k ∈ wayNames | .item _ => true) = true)
    {v w : Val Cls} (h : Back lossy firstOnly v w) :
    Both (Back lossy firstOnly) (follow p v) (follow p w) := by
  refine follow_back lossy firstOnly p v w (fun k hk c => ?_) h
  have := List.all_eq_true.1 hp _ hk
  exact way_kept k (by simpa using this) c

section
variable {lost first : Cls → List String}

theorem scaleLimit_back {a b : Option (Val Cls)} (h : Both (Back lost first) a b) :
    scaleLimit b = scaleLimit a := by
  cases h with
  | none => rfl
  | @some v w h =>
    cases v <;> simp only [Back, kept] at h <;> cases h <;> try rfl
    rename_i n m n' hn
    simp [scaleLimit, value_same hn]

theorem constOf_back {a b : Option (Val Cls)} (h : Both (Back lost first) a b) :
    constOf b = constOf a := by
  cases h with
  | none => rfl
  | @some v w h =>
    cases v <;> simp only [Back, kept] at h <;> cases h <;> try rfl
    rename_i n n' hn
    simp [constOf, value_same hn]

theorem labelOf_back {a b : Option (Val Cls)} (h : Both (Back lost first) a b) :
    labelOf b = labelOf a := by
  cases h with
  | none => rfl
  | @some v w h => cases v <;> simp only [Back, kept] at h <;> cases h <;> rfl

theorem finiteOf_back {v w : Val Cls} (h : Back lost first v w) : finiteOf w = finiteOf v := by
  cases v <;> simp only [Back, kept] at h <;> cases h <;> try rfl
  rename_i n n' hn
  simp [finiteOf, finite, value_same hn]

theorem mapM_back : {vs ws : List (Val Cls)} → SameList (keptList lost first vs) ws →
    ws.mapM finiteOf = vs.mapM finiteOf
  | [], _, .nil => rfl
  | v :: vs, _, .cons hv h => by
    rw [List.mapM_cons, List.mapM_cons, finiteOf_back hv, mapM_back h]

theorem numbers_back {a b : Option (Val Cls)} (h : Both (Back lost first) a b) :
    numbers b = numbers a := by
  cases h with
  | none => rfl
  | @some v w h =>
    cases v with
    | list vs =>
      obtain ⟨ws, rfl, hs⟩ := same_list (by simpa only [Back, kept] using h)
      exact mapM_back hs
    | _ => simp only [Back, kept] at h <;> cases h <;> rfl

end

theorem rowAt_back {v w : Val Cls} (h : Back lossy firstOnly v w) (i : Nat) :
    rowAt w i = rowAt v i := by
  have h1 := way_back (p := [Step.attr "int_to_phys", .attr "compu_scales", .item i]) (by rfl) h
  have h2 := way_back (p := [Step.attr "int_to_phys", .attr "compu_scales", .item i] ++
    [.attr "lower_limit"]) (by rfl) h
  have h3 := way_back (p := [Step.attr "int_to_phys", .attr "compu_scales", .item i] ++
    [.attr "upper_limit"]) (by rfl) h
  have h4 := way_back (p := [Step.attr "int_to_phys", .attr "compu_scales", .item i] ++
    [.attr "content", .attr "value"]) (by rfl) h
  have h5 := way_back (p := [Step.attr "int_to_phys", .attr "compu_scales", .item i] ++
    [.attr "label"]) (by rfl) h
  simp only [rowAt]
  rw [scaleLimit_back h2, scaleLimit_back h3, constOf_back h4, labelOf_back h5]
  generalize follow [Step.attr "int_to_phys", .attr "compu_scales", .item i] v = a at h1 ⊢
  generalize follow [Step.attr "int_to_phys", .attr "compu_scales", .item i] w = b at h1 ⊢
  cases h1 <;> rfl

theorem convert_back {v w : Val Cls} (h : Back lossy firstOnly v w) (x : Rat) :
    convert w x = convert v x := by
  have h1 := way_back (p := [Step.attr "int_to_phys", .attr "compu_scales", .item 0, .attr "content",
      .attr "numerator"]) (by rfl) h
  have h2 := way_back (p := [Step.attr "int_to_phys", .attr "compu_scales", .item 0, .attr "content",
      .attr "denominator"]) (by rfl) h
  simp only [convert]
  rw [numbers_back h1, numbers_back h2]

/-! ### Numbers -/

theorem canon_nat (c k : Nat) : ∃ k' : Nat, (canon c k).2 = k' ∧ (canon c k).1 * 10 ^ k' = c * 10 ^ k ∧
    (((canon c k).1 = 0 ∧ k' = 0) ∨ (canon c k).1 % 10 ≠ 0) := by
  induction c using Nat.strongRecOn generalizing k with
  | _ c ih =>
    rw [canon]
    split
    · rename_i h
      exact ⟨0, rfl, by simp [h], .inl ⟨rfl, rfl⟩⟩
    · split
      · rename_i h0 h10
        obtain ⟨k', e1, e2, e3⟩ := ih (c / 10) (by omega) (k + 1)
        have hc : ((k : Int) + 1) = ((k + 1 : Nat) : Int) := by simp
        rw [hc]
        refine ⟨k', e1, ?_, e3⟩
        rw [e2, Nat.pow_succ]
        have : c / 10 * 10 = c := Nat.div_mul_cancel (Nat.dvd_of_mod_eq_zero h10)
        calc c / 10 * (10 ^ k * 10) = (c / 10 * 10) * 10 ^ k := by ac_rfl
          _ = c * 10 ^ k := by rw [this]
      · rename_i h0 h10
        exact ⟨k, rfl, rfl, .inr h10⟩

theorem value_toFloat (n : PyNum) : value (.float (toFloat n)) = value n := by
  cases n with
  | float f => rfl
  | int i =>
    obtain ⟨k', e1, e2, -⟩ := canon_nat i.natAbs 0
    have e1' : (canon i.natAbs 0).2 = (k' : Int) := e1
    have e2' : (canon i.natAbs 0).1 * 10 ^ k' = i.natAbs := by simpa using e2
    simp only [toFloat, value, e1']
    rw [if_pos (by omega)]
    simp only [Int.toNat_natCast]
    have : ((canon i.natAbs 0).1 : Int) * 10 ^ k' = (i.natAbs : Int) := by
      have := congrArg (Nat.cast : Nat → Int) e2'
      simpa using this
    rw [this]
    by_cases hi : i < 0
    · have : -(i.natAbs : Int) = i := by omega
      simp [hi, this]
    · have : (i.natAbs : Int) = i := by omega
      simp [hi, this]

theorem floatOk_toFloat {n : PyNum} (h : goodFactor n = true) : floatOk (toFloat n) = true := by
  cases n with
  | float f => exact h
  | int i =>
    obtain ⟨k', e1, e2, e3⟩ := canon_nat i.natAbs 0
    have e1' : (canon i.natAbs 0).2 = (k' : Int) := e1
    have e2' : (canon i.natAbs 0).1 * 10 ^ k' = i.natAbs := by simpa using e2
    have e3' : ((canon i.natAbs 0).1 = 0 ∧ k' = 0) ∨ (canon i.natAbs 0).1 % 10 ≠ 0 := e3
    simp only [goodFactor, decide_eq_true_eq] at h
    simp only [toFloat, floatOk, e1', Int.toNat_natCast, e2']
    have h1 : i.natAbs < 10 ^ 28 := Nat.lt_of_le_of_lt h (by decide)
    simp only [h1, decide_true, Bool.or_true, Bool.and_true]
    rcases e3' with ⟨a, b⟩ | a
    · simp [a, b]
    · simp [a]

/-! ### Objects -/

theorem const_ok {v : Cell} (h : goodCell v = true) : WellFormed .CompuConst (compuConst v) := by
  cases v with
  | num n =>
    refine obj_ok (by decide +kernel :
      orderOk (tables.schema .CompuConst) ["value"] = true) ?_ rfl
    refine fields_ok (f := Schema.req "value" [.int, .numFloat, .str]) (by rfl) ?_ rfl
    cases n <;> simp_all [hasField, Schema.req, hasS, goodCell, numOk]
  | text s =>
    obtain ⟨h1, h2⟩ := Constant.goodText_iff.1 h
    refine obj_ok (by decide +kernel :
      orderOk (tables.schema .CompuConst) ["value"] = true) ?_ ?_
    · refine fields_ok (f := Schema.req "value" [.int, .numFloat, .str]) (by rfl) ?_ rfl
      simp [hasField, Schema.req, hasS, h1]
    · simp [plainFields, plainVal, h2, xmlAttrs]
  | other t => cases h

theorem num_alt {n : PyNum} (h : numOk n = true) :
    ([.int, .numFloat] : List (STy Cls)).any (hasS tables (.num n)) = true := by
  cases n <;> simp_all [hasS, numOk]

theorem rational_ok {a b c : PyNum} (ha : numOk a = true) (hb : numOk b = true) (hc : numOk c = true) :
    WellFormed .CompuRational (compuRational [a, b] [c]) := by
  refine obj_ok (by decide +kernel :
      orderOk (tables.schema .CompuRational) ["numerator", "denominator"] = true) ?_ ?_
  · refine fields_ok (f := ⟨"numerator", "numerator", (.many none), [.int, .numFloat], true⟩) (by rfl) ?_
      (fields_ok (f := Schema.list "denominator" [.int, .numFloat]) (by rfl) ?_ rfl)
    · simp only [hasField, hasList, List.map_cons, List.map_nil, num_alt ha, num_alt hb]; rfl
    · simp only [hasField, Schema.list, hasList, List.map_cons, List.map_nil, num_alt hc]; rfl
  · rfl

theorem cellLimit_ok {t : IntervalType} {o : Option Cell} (h : goodLimit o = true) {k : String}
    {v : Val Cls} (hv : cellLimit t o = some v) :
    hasField tables (Schema.opt k [.limit]) v = true ∧ plainVal xmlAttrs v = true := by
  cases o with
  | none => cases hv
  | some c =>
    cases c with
    | num n => exact limit_ok (n := some n) h hv
    | text s => cases h
    | other s => cases h

theorem scale_ok {content : Val Cls}
    (hc : ∃ c ∈ ([.CompuConst, .CompuRational] : List Cls), WellFormed c content) {lower upper : Option Cell}
    (hl : goodLimit lower = true) (hu : goodLimit upper = true) {label : Option String}
    (hb : ∀ s, label = some s → goodText s = true) (lt ut : IntervalType) :
    WellFormed .CompuScale (compuScale content lower upper label lt ut) := by
  unfold compuScale
  simp only [List.append_assoc]
  obtain ⟨c, hm, hc⟩ := hc
  have hlab : ∀ v : Val Cls, label.map .str = some v → ∃ s, v = .str s ∧ s ≠ "" ∧ plainText s = true := by
    intro v hv
    obtain ⟨s, hs, rfl⟩ := Option.map_eq_some_iff.1 hv
    exact ⟨s, rfl, Constant.goodText_iff.1 (hb s hs)⟩
  refine obj_ok ?_ ?_ ?_
  · have ho : ∀ b1 b2 b3 : Bool, orderOk (tables.schema .CompuScale)
        (["content"] ++ (sel b1 "lower_limit" ++ (sel b2 "upper_limit" ++ sel b3 "label"))) =
        true := by decide +kernel
    simp only [List.map_append, attr_names]
    exact ho _ _ _
  · refine fields_ok (f := Schema.opt "content" [.cls .CompuConst, .cls .CompuRational]) (by rfl) ?_ ?_
    · refine List.any_eq_true.2 ⟨.cls c, ?_, hc.1⟩
      simp at hm
      rcases hm with rfl | rfl <;> simp [Schema.opt]
    refine attr_ok (f := Schema.opt "lower_limit" [.limit]) (by rfl) (fun v hv => (cellLimit_ok hl hv).1) ?_
    refine attr_ok (f := Schema.opt "upper_limit" [.limit]) (by rfl) (fun v hv => (cellLimit_ok hu hv).1) ?_
    rw [← List.append_nil (attr "label" _)]
    refine attr_ok (f := Schema.opt "label" [.str]) (by rfl) (fun v hv => ?_) rfl
    obtain ⟨s, rfl, h1, h2⟩ := hlab v hv
    simp [hasField, Schema.opt, hasS, h1]
  · refine plain_attr (o := some content) (by decide) (fun v hv => by cases hv; exact hc.2) ?_
    refine plain_attr (by decide) (fun v hv => (cellLimit_ok (k := "") hl hv).2) ?_
    refine plain_attr (by decide) (fun v hv => (cellLimit_ok (k := "") hu hv).2) ?_
    rw [← List.append_nil (attr "label" _)]
    refine plain_attr (by decide) (fun v hv => ?_) rfl
    obtain ⟨s, rfl, h1, h2⟩ := hlab v hv
    simpa [plainVal] using h2

theorem default_ok {d : DefaultArg} (h : goodDefault d = true) :
    ∀ c, defaultOf d = some c → goodCell c = true := by
  intro c hc
  cases d with
  | none => cases hc
  | compuConst v => cases hc; exact h
  | cell v =>
    cases v with
    | num n => cases hc; exact h
    | text s => cases hc; exact h
    | other t => cases hc

theorem computation_ok {scales : List (Val Cls)} (hs : ∀ s ∈ scales, WellFormed .CompuScale s)
    {d : Option Cell} (hd : ∀ c, d = some c → goodCell c = true) :
    WellFormed .Computation (computation scales d) := by
  refine obj_ok ?_ ?_ ?_
  · have ho : ∀ b1 b2 : Bool, orderOk (tables.schema .Computation)
        (sel b1 "compu_scales" ++ sel b2 "default_value") = true := by decide +kernel
    simp only [List.map_append, attr_names, items_names]
    exact ho _ _
  · refine items_ok (f := Schema.list "compu_scales" [.cls .CompuScale])
      (by rfl) rfl (fun v hv => by simp [Schema.list, (hs v hv).1]) ?_
    rw [← List.append_nil (attr "default_value" _)]
    refine attr_ok (f := Schema.opt "default_value" [.cls .CompuConst]) (by rfl) (fun v hv => ?_) rfl
    obtain ⟨c, hc, rfl⟩ := Option.map_eq_some_iff.1 hv
    simp [hasField, Schema.opt, (const_ok (hd c hc)).1]
  · refine plain_items (by decide) (fun v hv => (hs v hv).2) ?_
    rw [← List.append_nil (attr "default_value" _)]
    refine plain_attr (by decide) (fun v hv => ?_) rfl
    obtain ⟨c, hc, rfl⟩ := Option.map_eq_some_iff.1 hv
    exact (const_ok (hd c hc)).2

theorem method_ok {name : String} (hn : goodText name = true) {c : Val Cls}
    (hc : WellFormed .Computation c) : WellFormed .CompuMethod (compuMethod name c) := by
  obtain ⟨n1, n2⟩ := Constant.goodText_iff.1 hn
  refine obj_ok (by decide +kernel :
      orderOk (tables.schema .CompuMethod) ["name", "int_to_phys"] = true) ?_ ?_
  · refine fields_ok (f := Schema.req "name" [.str]) (by rfl) (by simp [hasField, Schema.req, hasS, n1]) ?_
    refine fields_ok (f := Schema.opt "int_to_phys" [.cls .Computation]) (by rfl) ?_ rfl
    simp [hasField, Schema.opt, hc.1]
  · have h2 := hc.2
    simp only [plainFields, plainVal, n2, h2]
    simp [xmlAttrs]

/-! ### Rows of made tables -/

theorem lookup_attr (k k' : String) (o : Option (Val Cls)) :
    (attr k' o).lookup k = if k = k' then o else none := by
  cases o with
  | none => simp [attr]
  | some v =>
    by_cases h : k = k'
    · subst h; simp [attr]
    · have : (k == k') = false := by simpa using h
      simp [attr, List.lookup, h, this]

theorem lookup_items (k k' : String) (vs : List (Val Cls)) :
    (items k' vs).lookup k = if k = k' ∧ vs ≠ [] then some (.list vs) else none := by
  cases vs with
  | nil => simp [items]
  | cons v vs =>
    by_cases h : k = k'
    · subst h; simp [items]
    · have : (k == k') = false := by simpa using h
      simp [items, List.lookup, h, this]

theorem follow_attr (k : String) (p : List Step) (c : Cls) (fs : List (String × Val Cls)) :
    follow (.attr k :: p) (.obj c fs) = (fs.lookup k).bind (follow p) := by
  simp only [follow]
  cases fs.lookup k <;> rfl

theorem follow_scales (p : List Step) (i : Nat) (name : String) (scales : List (Val Cls))
    (d : Option Cell) :
    follow (.attr "int_to_phys" :: .attr "compu_scales" :: .item i :: p)
      (compuMethod name (computation scales d)) = (scales[i]?).bind (follow p) := by
  rw [compuMethod, follow_attr]
  have : List.lookup "int_to_phys" [("name", Val.str name), ("int_to_phys", computation scales d)] =
    some (computation scales d) := by rfl
  rw [this, Option.bind_some, computation, follow_attr, List.lookup_append, lookup_items, lookup_attr]
  cases scales with
  | nil => simp
  | cons s ss =>
    simp only [follow]
    cases hs : (s :: ss)[i]? <;> simp [follow, hs]

theorem follow_default (name : String) (scales : List (Val Cls)) (d : Option Cell) :
    follow [.attr "int_to_phys", .attr "default_value", .attr "value"]
      (compuMethod name (computation scales d)) = (d.map compuConst).bind (follow [.attr "value"]) := by
  rw [compuMethod, follow_attr]
  have : List.lookup "int_to_phys" [("name", Val.str name), ("int_to_phys", computation scales d)] =
    some (computation scales d) := by rfl
  rw [this, Option.bind_some, computation, follow_attr, List.lookup_append, lookup_items, lookup_attr]
  simp

theorem scaleLimit_cell (t : IntervalType) (o : Option Cell) :
    scaleLimit (cellLimit t o) = givenLimit t o := by
  cases o with
  | none => rfl
  | some c => cases c <;> cases t <;> rfl

theorem scale_lookup (content : Val Cls) (lower upper : Option Cell) (label : Option String)
    (lt ut : IntervalType) :
    follow [.attr "lower_limit"] (compuScale content lower upper label lt ut) = cellLimit lt lower ∧
    follow [.attr "upper_limit"] (compuScale content lower upper label lt ut) = cellLimit ut upper ∧
    follow [.attr "label"] (compuScale content lower upper label lt ut) = label.map .str ∧
    ∀ p, follow (.attr "content" :: p) (compuScale content lower upper label lt ut) = follow p content := by
  have hb : ∀ o : Option (Val Cls), o.bind (follow []) = o := by intro o; cases o <;> rfl
  refine ⟨?_, ?_, ?_, fun p => ?_⟩ <;>
    simp only [compuScale, follow_attr, List.lookup_append, lookup_attr, hb] <;>
    simp [List.lookup]

theorem rowAt_made (name : String) (scales : List (Val Cls)) (d : Option Cell) (i : Nat)
    (content : Val Cls) (lower upper : Option Cell) (label : Option String) (lt ut : IntervalType)
    (h : scales[i]? = some (compuScale content lower upper label lt ut)) :
    rowAt (compuMethod name (computation scales d)) i =
      some ⟨givenLimit lt lower, givenLimit ut upper, constOf (follow [.attr "value"] content), label⟩ := by
  obtain ⟨h1, h2, h3, h4⟩ := scale_lookup content lower upper label lt ut
  simp only [rowAt, List.cons_append, List.nil_append, follow_scales, h, Option.bind_some, h1, h2, h3, h4,
    scaleLimit_cell, follow]
  cases label <;> rfl

theorem rowAt_none (name : String) (scales : List (Val Cls)) (d : Option Cell) (i : Nat)
    (h : scales[i]? = none) : rowAt (compuMethod name (computation scales d)) i = none := by
  simp only [rowAt, follow_scales, h, Option.bind_none]

theorem const_value (v : Cell) (h : goodCell v = true) :
    constOf (follow [.attr "value"] (compuConst v)) =
      match v with | .num n => some (.num (value n)) | .text s => some (.text s) | .other _ => none := by
  cases v <;> rfl

/-! ### Made constraints -/

/-- The attributes of a made constraint, with its unit if there is one. -/
def madeFields (a : Args) (u : Option (Val Cls)) : List (String × Val Cls) :=
  constraintBase a.lower_limit a.upper_limit a.scale_constr a.max_gradient a.max_diff a.monotony
    a.lower_limit_type a.upper_limit_type ++ attr "unit_ref" u

theorem made_given (a : Args) (u : Option (Val Cls)) :
    (∀ k ∈ givenNames, (madeFields a u).lookup k = given a k) ∧
    (madeFields a u).lookup "unit_ref" = u ∧
    (madeFields a u).lookup "lower_limit" = limit a.lower_limit a.lower_limit_type ∧
    (madeFields a u).lookup "upper_limit" = limit a.upper_limit a.upper_limit_type := by
  refine ⟨fun k hk => ?_, ?_, ?_, ?_⟩
  · simp only [givenNames, List.mem_cons, List.not_mem_nil, or_false] at hk
    rcases hk with rfl | rfl | rfl | rfl <;>
      simp [madeFields, constraintBase, limitObject, List.lookup_append, lookup_attr, lookup_items, given]
  all_goals
    simp [madeFields, constraintBase, limitObject, List.lookup_append, lookup_attr, lookup_items]

theorem made_check (a : Args) (u : Option (Val Cls)) {lo hi : PyNum} (hlo : a.lower_limit = some lo)
    (hhi : a.upper_limit = some hi) (n : PyNum) :
    check (madeFields a u) n = checkValue
      ⟨some (value lo), some (value hi), a.lower_limit_type, a.upper_limit_type⟩ (value n) := by
  obtain ⟨-, -, h1, h2⟩ := made_given a u
  rw [hlo] at h1
  rw [hhi] at h2
  have ht : ∀ t, (if intervalMember t = intervalMember .closed then IntervalType.closed else .open) = t := by
    intro t; cases t <;> decide
  simp only [check, limitsOf, limitAttr, h1, h2, limit, Option.map_some, ht]

/-- What is read back of a made constraint. -/
theorem made_back {c : Cls} (a : Args) (u : Option (Val Cls)) {w : Val Cls}
    (h : Back lossy firstOnly (.obj c (madeFields a u)) w) : ∃ gs, w = .obj c gs ∧
      (∀ lo hi n, a.lower_limit = some lo → a.upper_limit = some hi →
        check gs n = checkValue
          ⟨some (value lo), some (value hi), a.lower_limit_type, a.upper_limit_type⟩ (value n)) ∧
      (∀ k ∈ givenNames, Arrives (given a k) (gs.lookup k)) ∧ Arrives u (gs.lookup "unit_ref") := by
  obtain ⟨gs, rfl, hk⟩ := back_attr h
  obtain ⟨h1, h2, -, -⟩ := made_given a u
  have key : ∀ k ∈ wayNames, Arrives ((madeFields a u).lookup k) (gs.lookup k) := by
    intro k hk'
    have hw := way_kept k hk' c
    have hb := (hk k).1 hw.1 hw.2
    generalize (madeFields a u).lookup k = x at hb ⊢
    generalize gs.lookup k = y at hb ⊢
    cases hb with
    | none => exact .none
    | some hb => exact .some hb
  refine ⟨gs, rfl, fun lo hi n hlo hhi => ?_, fun k hk' => ?_, ?_⟩
  · rw [check_back (fun k hk' => way_kept k ?_ c) h n, made_check a u hlo hhi]
    simp at hk'
    rcases hk' with rfl | rfl <;> decide
  · rw [← h1 k hk']
    refine key k ?_
    simp only [givenNames, List.mem_cons, List.not_mem_nil, or_false] at hk'
    rcases hk' with rfl | rfl | rfl | rfl <;> decide
  · have := key "unit_ref" (by decide)
    rwa [h2] at this

theorem physical_made (a : Args) : physicalConstraint a.lower_limit a.upper_limit a.scale_constr
    a.max_gradient a.max_diff a.monotony a.unit_ref a.lower_limit_type a.upper_limit_type =
    .obj .PhysicalConstraint (madeFields a (a.unit_ref.map .ref)) := rfl

theorem internal_made (a : Args) : internalConstraint a.lower_limit a.upper_limit a.scale_constr
    a.max_gradient a.max_diff a.monotony a.lower_limit_type a.upper_limit_type =
    .obj .InternalConstraint (madeFields a none) := by
  simp [internalConstraint, madeFields, attr]

/-! ### Made computations -/

theorem default_const {d : DefaultArg} (h : goodDefault d = true) :
    constOf (((defaultOf d).map compuConst).bind (follow [.attr "value"])) = defaultConst d := by
  cases d with
  | none => rfl
  | compuConst v => cases v <;> first | rfl | cases h
  | cell v => cases v <;> first | rfl | cases h

theorem default_back {v w : Val Cls} (h : Back lossy firstOnly v w) :
    constOf (follow [.attr "int_to_phys", .attr "default_value", .attr "value"] w) =
      constOf (follow [.attr "int_to_phys", .attr "default_value", .attr "value"] v) :=
  constOf_back (way_back (p := [.attr "int_to_phys", .attr "default_value", .attr "value"]) (by rfl) h)

theorem convert_made (name : String) (factor offset : PyNum) {f b : Rat}
    (hf : finite factor = some f) (hb : finite offset = some b) (lower upper : Option Cell)
    (lt ut : IntervalType) (d : DefaultArg) (x : Rat) :
    convert (compuMethod name (rationalObj (makeRational factor offset lower upper lt ut) d)) x =
      some (b + f * x) := by
  have hf' : finite (.float (toFloat factor)) = some f := by
    simpa only [finite, value_toFloat] using hf
  have h1 : finite (.int 1) = some 1 := by rfl
  simp only [convert, rationalObj, follow_scales, makeRational]
  simp only [List.getElem?_cons_zero, Option.bind_some, (scale_lookup _ _ _ _ _ _).2.2.2]
  have hn : follow [.attr "numerator"] (compuRational [offset, .float (toFloat factor)] [.int 1]) =
      some (.list [.num offset, .num (.float (toFloat factor))]) := by rfl
  have hd : follow [.attr "denominator"] (compuRational [offset, .float (toFloat factor)] [.int 1]) =
      some (.list [.num (.int 1)]) := by rfl
  rw [hn, hd]
  simp only [numbers, List.mapM_cons, List.mapM_nil, finiteOf, hf', hb, h1, Option.bind_eq_bind,
    Option.bind_some, Option.pure_def, poly]
  congr 1
  grind

theorem rational_method_ok {name : String} (hn : goodText name = true) {factor offset : PyNum}
    (gf : goodFactor factor = true) (gb : numOk offset = true) {lower upper : Option Cell}
    (hl : goodLimit lower = true) (hu : goodLimit upper = true) {d : DefaultArg}
    (hd : goodDefault d = true) (lt ut : IntervalType) :
    WellFormed .CompuMethod (compuMethod name
      (rationalObj (makeRational factor offset lower upper lt ut) d)) := by
  refine method_ok hn (computation_ok (fun s hs => ?_) (default_ok hd))
  simp only [List.mem_cons, List.not_mem_nil, or_false] at hs
  subst hs
  exact scale_ok ⟨.CompuRational, by simp, rational_ok gb (b := .float (toFloat factor)) (floatOk_toFloat gf) rfl⟩ hl hu (by simp) lt ut

theorem entry_row {al : Bool} {i : Nat} {e : Entry} (h : goodEntry e = true) :
    ∃ s, entryScale al i e = .ok s ∧ goodLimit (some s.lower) = true ∧ goodLimit (some s.upper) = true ∧
      goodCell s.value = true ∧ (∀ t, s.label = some t → goodText t = true) ∧
      described al i e = some ⟨givenLimit s.lowerType (some s.lower), givenLimit s.upperType (some s.upper),
        constOf (follow [.attr "value"] (compuConst s.value)), s.label⟩ := by
  have hcell : ∀ (a b : PyNum) (v : Cell), numOk a = true → numOk b = true → goodCell v = true →
      entryLimits i e = .ok (.num a, .num b, v) →
      described al i e = (match v with
        | .num n => some ⟨some (value a, true), some (value b, true), some (.num (value n)), none⟩
        | .text s => some ⟨some (value a, true), some (value b, true), some (.text s),
            if al then some s else none⟩
        | .other _ => none) →
      ∃ s, entryScale al i e = .ok s ∧ goodLimit (some s.lower) = true ∧ goodLimit (some s.upper) = true ∧
        goodCell s.value = true ∧ (∀ t, s.label = some t → goodText t = true) ∧
        described al i e = some ⟨givenLimit s.lowerType (some s.lower), givenLimit s.upperType (some s.upper),
          constOf (follow [.attr "value"] (compuConst s.value)), s.label⟩ := by
    intro a b v ha hb hv he hd
    rw [hd]
    unfold entryScale
    rw [he]
    refine ⟨_, rfl, ha, hb, hv, ?_, ?_⟩
    · intro t ht
      cases v with
      | text s =>
        cases al
        · simp at ht
        · simp at ht; subst ht; exact hv
      | num n => simp at ht
      | other s => simp at ht
    · cases v with
      | text s => cases al <;> rfl
      | num n => rfl
      | other s => cases hv
  unfold goodEntry at h
  split at h
  · exact hcell (.int i) (.int i) (.text _) rfl rfl h rfl rfl
  · simp only [Bool.and_eq_true] at h
    exact hcell _ _ _ h.1 h.1 h.2 rfl rfl
  · simp only [Bool.and_eq_true] at h
    exact hcell _ _ _ h.1.1 h.1.2 h.2 rfl rfl
  · cases h

theorem loop_rows (al : Bool) : ∀ (es : List Entry) (i : Nat), (∀ e ∈ es, goodEntry e = true) →
    ∃ ss, tableLoop al i es = .ok ss ∧ ss.length = es.length ∧
      ∀ (j : Nat) e, es[j]? = some e → ∃ s, ss[j]? = some s ∧ entryScale al (i + j) e = .ok s
  | [], i, _ => ⟨[], rfl, rfl, by simp⟩
  | e :: es, i, h => by
    obtain ⟨s, hs, -⟩ := entry_row (al := al) (i := i) (h e (.head _))
    obtain ⟨ss, h1, h2, h3⟩ := loop_rows al es (i + 1) (fun e he => h e (.tail _ he))
    refine ⟨s :: ss, by simp [tableLoop, hs, h1], by simp [h2], fun j e' hj => ?_⟩
    cases j with
    | zero => simp at hj; subst hj; exact ⟨s, rfl, hs⟩
    | succ j =>
      obtain ⟨s', h4, h5⟩ := h3 j e' (by simpa using hj)
      exact ⟨s', by simpa using h4, by rw [← h5]; congr 1; omega⟩

end Verif.Codec.Scaling
