import Verif.Codec.LoadDoc
import Verif.Codec.OlderProof
/-
What was written and read is well-formed again (used for C69).
-/
set_option linter.unusedSimpArgs false
set_option linter.unusedVariables false
namespace Verif.Codec.Again
open Verif.Py Verif.Enums Verif.Num Verif.Codec Verif.Codec.Spec Verif.Codec.Older.Spec

/-- No attribute that must be there is lost, and where a float is read as a number an int may stand. -/
def schemaOk (c : Cls) : Bool :=
  (tables.schema c).all fun f => (!f.req || decide (f.attr ∉ tables.lost c)) &&
    (!f.alts.contains .numFloat || f.alts.contains .int)

theorem schema_fixed : ∀ n < 186, schemaOk (Cls.ofNat n) = true := by decide +kernel

theorem schema_ok (c : Cls) {f : Field Cls} (hf : f ∈ tables.schema c) :
    (f.req = true → f.attr ∉ tables.lost c) ∧ (f.alts.contains .numFloat = true → f.alts.contains .int = true) := by
  have h := schema_fixed c.ctorIdx (by cases c <;> decide)
  rw [Cls.ofNat_ctorIdx] at h
  unfold schemaOk at h
  have := List.all_eq_true.1 h f hf
  simp only [Bool.and_eq_true, Bool.or_eq_true, Bool.not_eq_true', decide_eq_true_eq] at this
  constructor
  · intro hr; rcases this.1 with h | h
    · rw [hr] at h; cases h
    · exact h
  · intro hr; rcases this.2 with h | h
    · rw [hr] at h; cases h
    · exact h

/-! ### No markup -/

theorem plain_cut {s : List (Field Cls)} {k : String} {v : Val Cls} (h : plainVal xmlAttrs v = true) :
    plainVal xmlAttrs (cutAt s k v) = true := by
  unfold cutAt
  split
  · unfold Field.cut
    split
    · simp only [plainVal, plainList, Bool.and_eq_true] at h ⊢
      exact ⟨h.1, trivial⟩
    · exact h
  · exact h

theorem cut_norm_str {s : List (Field Cls)} {k : String} {b : Bool} {v : Val Cls} {t : String}
    (h : cutAt s k (normVal tables b v) = .str t) : v = .str t := by
  have hn : normVal tables b v = .str t := by
    unfold cutAt at h
    split at h
    · unfold Field.cut at h
      split at h
      · cases h
      · exact h
    · exact h
  cases v <;> simp only [normVal] at hn <;> first | exact hn | cases hn

mutual
theorem plain_norm (b : Bool) : ∀ v : Val Cls, plainVal xmlAttrs v = true →
    plainVal xmlAttrs (normVal tables b v) = true
  | .num n, _ => by simp [normVal, plainVal]
  | .limit n m, _ => by simp [normVal, plainVal]
  | .list vs, h => by
    simp only [normVal, plainVal] at h ⊢
    exact plain_normList b vs h
  | .obj c fs, h => by
    simp only [normVal, plainVal] at h ⊢
    exact plain_normFields c fs h
  | .str s, h => by simpa [normVal] using h
  | .bool x, _ => by simp [normVal, plainVal]
  | .numval n, _ => by simp [normVal, plainVal]
  | .enum m, _ => by simp [normVal, plainVal]
  | .ref r, h => by simpa [normVal] using h
theorem plain_normList (b : Bool) : ∀ vs : List (Val Cls), plainList xmlAttrs vs = true →
    plainList xmlAttrs (normList tables b vs) = true
  | [], _ => rfl
  | v :: vs, h => by
    simp only [plainList, Bool.and_eq_true] at h
    rw [normList, plainList, plain_norm b v h.1, plain_normList b vs h.2]
    rfl
theorem plain_normFields (c : Cls) : ∀ fs : List (String × Val Cls), plainFields xmlAttrs fs = true →
    plainFields xmlAttrs (normFields tables c fs) = true
  | [], _ => rfl
  | (k, v) :: fs, h => by
    simp only [plainFields, Bool.and_eq_true] at h
    rw [normFields]
    split
    · exact plain_normFields c fs h.2
    · simp only [plainFields, Bool.and_eq_true]
      refine ⟨⟨plain_cut (plain_norm _ v h.1.1), ?_⟩, plain_normFields c fs h.2⟩
      have h2 := h.1.2
      by_cases hk : k ∈ xmlAttrs
      · simp only [hk, not_true_eq_false, decide_false, Bool.false_or] at h2 ⊢
        split
        · rename_i t ht
          rw [cut_norm_str ht] at h2
          exact h2
        · rfl
      · simp [hk]
end

/-! ### The types -/

theorem canon_ok {n : PyNum} (h : numOk n = true) : numOk (canonNum n) = true := by
  cases n with
  | int i => exact h
  | float f =>
    cases f with
    | fin neg c e =>
      simp only [canonNum]
      split
      · rfl
      · split
        · rfl
        · exact h
    | _ => exact h

theorem canon_cases (n : PyNum) : canonNum n = n ∨ ∃ i, canonNum n = .int i := by
  cases n with
  | int i => exact .inl rfl
  | float f =>
    cases f with
    | fin neg c e =>
      simp only [canonNum]
      split
      · exact .inr ⟨_, rfl⟩
      · split
        · exact .inr ⟨_, rfl⟩
        · exact .inl rfl
    | _ => exact .inl rfl

theorem keys_norm (c : Cls) (fs : List (String × Val Cls)) :
    (normFields tables c fs).map (·.1) = (fs.map (·.1)).filter (· ∉ tables.lost c) := by
  induction fs with
  | nil => rfl
  | cons p fs ih =>
    obtain ⟨k, v⟩ := p
    rw [normFields, List.map_cons, List.filter_cons]
    by_cases hk : k ∈ tables.lost c
    · rw [if_pos hk, ih, if_neg (by simpa using hk)]
    · rw [if_neg hk, List.map_cons, ih, if_pos (by simpa using hk)]

theorem order_norm (c : Cls) {names : List String} (h : orderOk (tables.schema c) names = true) :
    orderOk (tables.schema c) (names.filter (· ∉ tables.lost c)) = true := by
  unfold orderOk at h ⊢
  simp only [Bool.and_eq_true, decide_eq_true_eq, List.all_eq_true] at h ⊢
  obtain ⟨h1, h2⟩ := h
  constructor
  · conv => lhs; rw [h1]
    rw [List.filter_filter]
    apply List.filter_congr
    intro x _
    simp only [List.mem_filter, Bool.decide_and, decide_not]
    rw [Bool.and_comm]
    simp
  · intro f hf
    have := h2 f hf
    simp only [Bool.or_eq_true, Bool.not_eq_true', decide_eq_true_eq, List.mem_filter] at this ⊢
    rcases this with h | h
    · exact .inl h
    · by_cases hr : f.req = true
      · exact .inr ⟨h, by simpa using (schema_ok c hf).1 hr⟩
      · exact .inl (by simpa using hr)

theorem normList_empty (b : Bool) (vs : List (Val Cls)) :
    (normList tables b vs).isEmpty = vs.isEmpty := by cases vs <;> rfl

theorem normList_length (b : Bool) (vs : List (Val Cls)) :
    (normList tables b vs).length = vs.length := by
  induction vs with
  | nil => rfl
  | cons v vs ih => simp [normList, ih]

theorem notStr_norm (b : Bool) (v : Val Cls) : notStr (normVal tables b v) = notStr v := by
  cases v <;> simp [normVal, notStr]

theorem normList_notStr (b : Bool) (vs : List (Val Cls)) (h : vs.all notStr = true) :
    (normList tables b vs).all notStr = true := by
  induction vs with
  | nil => rfl
  | cons v vs ih =>
    simp only [List.all_cons, Bool.and_eq_true, normList] at h ⊢
    exact ⟨by rw [notStr_norm]; exact h.1, ih h.2⟩

theorem normList_tail (b : Bool) (vs : List (Val Cls)) :
    (normList tables b vs).tail = normList tables b vs.tail := by cases vs <;> rfl

theorem cut_not_first {s : List (Field Cls)} {k : String} {f : Field Cls} (hf : fieldOf s k = some f)
    (h : f.shape ≠ .first) (v : Val Cls) : cutAt s k v = v := by
  unfold cutAt
  rw [hf]
  simp only [Field.cut]
  split
  · rename_i h1; exact absurd h1 h
  · rfl

/-- One attribute. -/
theorem field_step (c : Cls) {k : String} {v : Val Cls} {fs : List (String × Val Cls)}
    (hv : ∀ b (alts : List (STy Cls)), (b = true → alts.contains .int = true) →
      alts.any (hasS tables v) = true → alts.any (hasS tables (normVal tables b v)) = true)
    (hl : ∀ b (alts : List (STy Cls)), (b = true → alts.contains .int = true) → ∀ vs, v = .list vs →
      hasList tables alts vs = true → hasList tables alts (normList tables b vs) = true)
    (hr : hasFields tables (tables.schema c) fs = true →
      hasFields tables (tables.schema c) (normFields tables c fs) = true)
    (h : hasFields tables (tables.schema c) ((k, v) :: fs) = true) :
    hasFields tables (tables.schema c) (normFields tables c ((k, v) :: fs)) = true := by
  rw [hasFields] at h
  obtain ⟨h1, h2⟩ := (Bool.and_eq_true _ _).mp h
  rw [normFields]
  split
  · exact hr h2
  rw [hasFields]
  refine (Bool.and_eq_true _ _).mpr ⟨?_, hr h2⟩
  cases hf : fieldOf (tables.schema c) k with
  | none => rw [hf] at h1; cases h1
  | some f =>
    rw [hf] at h1
    simp only at h1 ⊢
    have hmem : f ∈ tables.schema c := List.mem_of_find?_eq_some hf
    have hb : numField (tables.schema c) k = true → f.alts.contains .int = true := by
      intro hn
      unfold numField at hn
      rw [hf] at hn
      exact (schema_ok c hmem).2 hn
    cases hs : f.shape with
    | one =>
      rw [hs] at h1
      simp only at h1 ⊢
      rw [cut_not_first hf (by rw [hs]; simp)]
      exact hv _ _ hb h1
    | many max =>
      rw [hs] at h1
      simp only at h1 ⊢
      rw [cut_not_first hf (by rw [hs]; simp)]
      cases v with
      | list vs =>
        simp only [normVal, Bool.and_eq_true, normList_empty, normList_length] at h1 ⊢
        exact ⟨h1.1, hl _ _ hb vs rfl h1.2⟩
      | _ => cases h1
    | mixed =>
      rw [hs] at h1
      simp only at h1 ⊢
      rw [cut_not_first hf (by rw [hs]; simp)]
      cases v with
      | list vs =>
        simp only [normVal, Bool.and_eq_true, normList_empty, normList_tail] at h1 ⊢
        exact ⟨⟨h1.1.1, normList_notStr _ _ h1.1.2⟩, hl _ _ hb vs rfl h1.2⟩
      | _ => cases h1
    | first =>
      rw [hs] at h1
      simp only at h1 ⊢
      cases v with
      | list vs =>
        cases vs with
        | nil => simp at h1
        | cons u vs =>
          have := hl _ _ hb _ rfl ((Bool.and_eq_true _ _).mp h1).2
          simp only [normList, hasList, Bool.and_eq_true] at this
          simp only [cutAt, hf, Field.cut, hs, normVal, normList, hasList, Bool.and_eq_true]
          exact ⟨rfl, this.1, trivial⟩
      | _ => cases h1

mutual
theorem has_norm (b : Bool) (alts : List (STy Cls)) (hb : b = true → alts.contains .int = true) :
    ∀ v : Val Cls, alts.any (hasS tables v) = true → alts.any (hasS tables (normVal tables b v)) = true
  | .num n, h => by
    simp only [normVal]
    cases b with
    | false => simpa using h
    | true =>
      simp only [if_true]
      rcases canon_cases n with e | ⟨i, e⟩
      · rw [e]; exact h
      · rw [e]
        have := hb rfl
        rw [List.any_eq_true]
        refine ⟨.int, ?_, by simp [hasS]⟩
        simpa using this
  | .limit n m, h => by
    simp only [normVal]
    rw [List.any_eq_true] at h ⊢
    obtain ⟨a, ha, h⟩ := h
    refine ⟨a, ha, ?_⟩
    cases a <;> simp only [hasS, Bool.and_eq_true, Bool.false_eq_true] at h ⊢
    exact ⟨⟨canon_ok h.1.1, h.1.2⟩, h.2⟩
  | .list vs, h => by
    rw [List.any_eq_true] at h
    obtain ⟨a, ha, h⟩ := h
    simp [hasS] at h
  | .obj c fs, h => by
    simp only [normVal]
    rw [List.any_eq_true] at h ⊢
    obtain ⟨a, ha, h⟩ := h
    refine ⟨a, ha, ?_⟩
    cases a <;> simp only [hasS, Bool.and_eq_true, Bool.false_eq_true] at h ⊢
    refine ⟨⟨h.1.1, ?_⟩, has_normFields c fs h.2⟩
    rw [keys_norm]
    exact order_norm c h.1.2
  | .str s, h => by simpa [normVal] using h
  | .bool x, h => by simpa [normVal] using h
  | .numval n, h => by simpa [normVal] using h
  | .enum m, h => by simpa [normVal] using h
  | .ref r, h => by simpa [normVal] using h
theorem has_normList (b : Bool) (alts : List (STy Cls)) (hb : b = true → alts.contains .int = true) :
    ∀ vs : List (Val Cls), hasList tables alts vs = true → hasList tables alts (normList tables b vs) = true
  | [], _ => rfl
  | v :: vs, h => by
    simp only [hasList, Bool.and_eq_true] at h
    rw [normList, hasList, has_norm b alts hb v h.1, has_normList b alts hb vs h.2]
    rfl
theorem has_normFields (c : Cls) : ∀ fs : List (String × Val Cls),
    hasFields tables (tables.schema c) fs = true →
    hasFields tables (tables.schema c) (normFields tables c fs) = true
  | [], _ => rfl
  | (_, .list vs) :: fs, h => field_step c (fun b alts hb => has_norm b alts hb (.list vs))
    (fun b alts hb _ e h => by cases e; exact has_normList b alts hb vs h) (has_normFields c fs) h
  | (_, .num x) :: fs, h => field_step c (fun b alts hb => has_norm b alts hb (.num x))
    (fun _ _ _ _ e => nomatch e) (has_normFields c fs) h
  | (_, .limit x y) :: fs, h => field_step c (fun b alts hb => has_norm b alts hb (.limit x y))
    (fun _ _ _ _ e => nomatch e) (has_normFields c fs) h
  | (_, .obj d gs) :: fs, h => field_step c (fun b alts hb => has_norm b alts hb (.obj d gs))
    (fun _ _ _ _ e => nomatch e) (has_normFields c fs) h
  | (_, .str x) :: fs, h => field_step c (fun b alts hb => has_norm b alts hb (.str x))
    (fun _ _ _ _ e => nomatch e) (has_normFields c fs) h
  | (_, .bool x) :: fs, h => field_step c (fun b alts hb => has_norm b alts hb (.bool x))
    (fun _ _ _ _ e => nomatch e) (has_normFields c fs) h
  | (_, .numval x) :: fs, h => field_step c (fun b alts hb => has_norm b alts hb (.numval x))
    (fun _ _ _ _ e => nomatch e) (has_normFields c fs) h
  | (_, .enum x) :: fs, h => field_step c (fun b alts hb => has_norm b alts hb (.enum x))
    (fun _ _ _ _ e => nomatch e) (has_normFields c fs) h
  | (_, .ref x) :: fs, h => field_step c (fun b alts hb => has_norm b alts hb (.ref x))
    (fun _ _ _ _ e => nomatch e) (has_normFields c fs) h
end

theorem wf_norm {c : Cls} {v : Val Cls} (h : WellFormed c v) : WellFormed c (normVal tables false v) := by
  refine ⟨?_, plain_norm false v h.2⟩
  have := has_norm false [.cls c] (by simp) v (by simpa using h.1)
  simpa using this

end Verif.Codec.Again
