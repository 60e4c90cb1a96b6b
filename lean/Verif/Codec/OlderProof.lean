import Verif.Codec.OlderRt
import Verif.Codec.OlderSpec
/-
Lemmas: exclusive areas become references and references become exclusive areas.
-/
set_option linter.unusedSectionVars false
set_option linter.unusedSimpArgs false
namespace Verif.Codec.Older
open Verif.Py Verif.Num Verif.Xml Verif.Xml.Spec Verif.Codec.Spec Verif.Codec.Older.Spec

/-! ### The tables -/

set_option maxRecDepth 4000 in
theorem older_ok : allOk older pairs = true := by decide +kernel

theorem olderW_eq {m : WM} (h : m ≠ .runnable_entity) (arg : Option String) :
    olderW m arg = wm m arg := by
  unfold olderW; split
  · exact absurd rfl h
  · rfl

theorem older_safe (m : WM) (arg : Option String) (ha : argSafe arg = true) :
    methSafe xmlAttrs (older.wm m arg) = true := by
  show methSafe xmlAttrs (olderW m arg) = true
  by_cases h : m = .runnable_entity
  · subst h
    show methSafe xmlAttrs runnableEntityW = true
    decide +kernel
  · rw [olderW_eq h]; exact tables_safe m arg ha

instance : Sound older where
  ok := older_ok
  safe := older_safe
  name := name_kept
  tag m arg := by
    by_cases h : m = .runnable_entity
    · subst h; rfl
    · unfold methTag
      rw [show older.wm m arg = wm m arg from olderW_eq h arg]
      rfl
  packageW := rfl
  packageR := rfl
  bases := by decide +kernel

instance : Sound tables where
  ok := tables_ok
  safe := tables_safe
  name := name_kept
  tag _ _ := rfl
  packageW := rfl
  packageR := rfl
  bases := by decide +kernel

instance (n : Nat) : Sound (tablesFor n) := by
  unfold tablesFor; split <;> infer_instance

/-! ### Fields -/

theorem olderField_attr (c : Cls) (f : Field Cls) : (olderField c f).attr = f.attr := by
  unfold olderField; split <;> rfl

theorem olderField_shape (c : Cls) (f : Field Cls) : (olderField c f).shape = f.shape := by
  unfold olderField; split <;> rfl

theorem olderField_req (c : Cls) (f : Field Cls) : (olderField c f).req = f.req := by
  unfold olderField; split <;> rfl

theorem fieldOf_older (c : Cls) (s : List (Field Cls)) (k : String) :
    fieldOf (s.map (olderField c)) k = (fieldOf s k).map (olderField c) := by
  induction s with
  | nil => rfl
  | cons f s ih =>
    unfold fieldOf at ih ⊢
    simp only [List.map_cons, List.find?_cons, olderField_attr]
    split
    · rfl
    · exact ih

theorem attrs_older (c : Cls) (s : List (Field Cls)) :
    (s.map (olderField c)).map (·.attr) = s.map (·.attr) := by
  rw [List.map_map]
  exact List.map_congr_left fun f _ => olderField_attr c f

theorem order_older (c : Cls) (s : List (Field Cls)) (names : List String) :
    orderOk (s.map (olderField c)) names = orderOk s names := by
  unfold orderOk
  rw [attrs_older, List.all_map]
  congr 1
  apply List.all_congr rfl
  intro f
  simp [olderField_attr, olderField_req]

theorem lowerFields_names (c : Cls) (fs : List (String × Val Cls)) :
    (lowerFields c fs).map (·.1) = fs.map (·.1) := by
  induction fs with
  | nil => rfl
  | cons p fs ih => obtain ⟨k, v⟩ := p; simp [lowerFields, ih]

theorem lowerList_map (vs : List (Val Cls)) : lowerList vs = vs.map lower := by
  induction vs with
  | nil => rfl
  | cons v vs ih => simp [lowerList, ih]

theorem raiseList_map (vs : List (Val Cls)) : raiseList vs = vs.map raise := by
  induction vs with
  | nil => rfl
  | cons v vs ih => simp [raiseList, ih]

theorem namedFields_iff (c : Cls) (k : String) :
    (c = .RunnableEntity ∧ (k = "can_enter_leave" ∨ k = "runs_insides")) ↔ isAreas c k = true := by
  simp [isAreas]

/-! ### Entries -/

/-- An entry that names its exclusive area. -/
def entry (r : Verif.Ref.RefObj) : Val Cls :=
  .obj .ExclusiveAreaRefConditional [("exclusive_area", .ref r)]

theorem entry_fields : (covered .ExclusiveAreaRefConditional).map (fun f => (f.attr, f.shape, f.alts)) =
    [("exclusive_area", .one, [.ref "ExclusiveAreaRef"])] := by decide +kernel

theorem entry_of {u : Val Cls} (h : hasS tables u (.cls .ExclusiveAreaRefConditional) = true)
    (hn : named u = true) :
    ∃ r, u = entry r ∧ hasS older (.ref r) (.ref "ExclusiveAreaRef") = true := by
  cases u with
  | obj c fs =>
    simp only [hasS, Bool.and_eq_true, decide_eq_true_eq] at h
    obtain ⟨⟨rfl, ho⟩, hf⟩ := h
    have ha : ((covered .ExclusiveAreaRefConditional).map (·.attr)) = ["exclusive_area"] := by
      decide +kernel
    simp only [orderOk, Bool.and_eq_true, decide_eq_true_eq] at ho
    have ho := ho.1
    rw [show tables.schema .ExclusiveAreaRefConditional = covered .ExclusiveAreaRefConditional from rfl,
      ha] at ho
    simp only [named] at hn
    cases hd : dictGet fs "exclusive_area" with
    | none => simp [hd] at hn
    | some w =>
      rw [hd] at hn
      cases w with
      | ref r =>
        have hnames : fs.map (·.1) = ["exclusive_area"] := by
          rw [ho, List.filter_cons]
          split
          · rfl
          · rename_i hm
            rw [List.filter_nil, decide_eq_true_eq] at *
            exact absurd ((dictGet_none.2 hm).symm.trans hd) (by simp)
        obtain ⟨f, hfo, hty⟩ := hasFields_get hf hd
        have hfs : fs = [("exclusive_area", .ref r)] := by
          cases fs with
          | nil => simp at hnames
          | cons p fs =>
            cases fs with
            | cons q fs => simp at hnames
            | nil =>
              obtain ⟨k, v⟩ := p
              simp only [List.map_cons, List.map_nil, List.cons.injEq, and_true] at hnames
              subst hnames
              simp only [dictGet, if_true, Option.some.injEq] at hd
              rw [hd]
        subst hfs
        refine ⟨r, rfl, ?_⟩
        obtain ⟨hm, hk⟩ := fieldOf_mem hfo
        have hmap := List.mem_map_of_mem (f := fun f : Field Cls => (f.attr, f.shape, f.alts)) hm
        rw [show tables.schema .ExclusiveAreaRefConditional =
          covered .ExclusiveAreaRefConditional from rfl, entry_fields] at hmap
        simp only [List.mem_singleton, Prod.mk.injEq] at hmap
        unfold hasField at hty
        rw [hmap.2.1, hmap.2.2] at hty
        simpa [hasS] using hty
      | _ => simp at hn
  | _ => simp [named] at hn

theorem areas_field {c : Cls} {k : String} (h : isAreas c k = true) :
    (fieldOf (covered c) k).map (fun f => (f.shape, f.alts)) =
      some (.many none, [.cls .ExclusiveAreaRefConditional]) := by
  simp only [isAreas, Bool.and_eq_true, Bool.or_eq_true, decide_eq_true_eq] at h
  obtain ⟨rfl, rfl | rfl⟩ := h <;> decide +kernel

/-! ### The form of objects -/

mutual
/-- The exclusive areas of every runnable are entries that name them. -/
def Form : Val Cls → Prop
  | .obj c fs => FormFields c fs
  | .list vs => FormList vs
  | _ => True
def FormFields (c : Cls) : List (String × Val Cls) → Prop
  | [] => True
  | (k, v) :: rest =>
    (if isAreas c k = true then ∃ rs : List Verif.Ref.RefObj, v = .list (rs.map entry) else Form v) ∧
      FormFields c rest
def FormList : List (Val Cls) → Prop
  | [] => True
  | v :: vs => Form v ∧ FormList vs
end

theorem entries_of : ∀ vs : List (Val Cls),
    hasList tables [.cls .ExclusiveAreaRefConditional] vs = true → vs.all named = true →
    (∃ rs : List Verif.Ref.RefObj, vs = rs.map entry) ∧
      hasList older [.ref "ExclusiveAreaRef"] (vs.map areaRef) = true
  | [], _, _ => ⟨⟨[], rfl⟩, rfl⟩
  | v :: vs, h, hn => by
    simp only [hasList, List.any_cons, List.any_nil, Bool.or_false, Bool.and_eq_true] at h
    simp only [List.all_cons, Bool.and_eq_true] at hn
    obtain ⟨⟨rs, rfl⟩, h2⟩ := entries_of vs h.2 hn.2
    obtain ⟨r, rfl, hr⟩ := entry_of h.1 hn.1
    refine ⟨⟨r :: rs, rfl⟩, ?_⟩
    simp only [List.map_cons, hasList, List.any_cons, List.any_nil, Bool.or_false,
      Bool.and_eq_true]
    refine ⟨?_, h2⟩
    have : areaRef (entry r) = .ref r := by simp [areaRef, entry, dictGet]
    rw [this]
    exact hr

theorem notStr_lower (v : Val Cls) : notStr (lower v) = notStr v := by
  cases v <;> simp [lower, notStr]

mutual
theorem has_lower : ∀ v : Val Cls,
    (∀ a, hasS tables v a = true → areasNamed v = true → hasS older (lower v) a = true ∧ Form v) ∧
    (∀ vs alts, v = .list vs → hasList tables alts vs = true → areasNamed v = true →
      hasList older alts (lowerList vs) = true ∧ Form v)
  | .obj c fs => by
    refine ⟨?_, by simp⟩
    intro a h hn
    cases a <;> simp [hasS] at h
    obtain ⟨⟨rfl, ho⟩, hf⟩ := h
    simp only [areasNamed] at hn
    obtain ⟨h1, h2⟩ := has_lowerFields c fs hf hn
    refine ⟨?_, by simpa [Form] using h2⟩
    simp only [lower, hasS, Bool.and_eq_true, decide_eq_true_eq, true_and]
    refine ⟨?_, h1⟩
    rw [lowerFields_names]
    exact (order_older c (covered c) _).trans ho
  | .list vs => by
    refine ⟨by simp [hasS], ?_⟩
    rintro _ alts ⟨rfl⟩ h hn
    simp only [areasNamed] at hn
    simpa [Form] using has_lowerList alts vs h hn
  | .str _ | .bool _ | .num _ | .numval _ | .enum _ | .limit _ _ | .ref _ => by
    refine ⟨?_, by simp⟩
    intro a h _
    refine ⟨?_, by simp [Form]⟩
    simpa [lower, hasS] using h
theorem has_lowerFields (c : Cls) : ∀ fs : List (String × Val Cls),
    hasFields tables (covered c) fs = true → areasNamedFields c fs = true →
    hasFields older ((covered c).map (olderField c)) (lowerFields c fs) = true ∧ FormFields c fs
  | [], _, _ => by simp [lowerFields, hasFields, FormFields]
  | (k, v) :: rest, h, hn => by
    rw [hasFields_cons, Bool.and_eq_true] at h
    simp only [areasNamedFields, Bool.and_eq_true, namedFields_iff] at hn
    obtain ⟨i1, i2⟩ := has_lowerFields c rest h.2 hn.2
    obtain ⟨j1, j2⟩ := has_lower v
    rw [lowerFields, hasFields_cons, Bool.and_eq_true, fieldOf_older]
    cases hfo : fieldOf (covered c) k with
    | none => simp [hfo] at h
    | some f =>
      have hty : hasField tables f v = true := by simpa [hfo] using h.1
      have hat := (fieldOf_mem hfo).2
      by_cases ha : isAreas c k = true
      · have hsh := areas_field ha
        rw [hfo] at hsh
        simp only [Option.map_some, Option.some.injEq, Prod.mk.injEq] at hsh
        rw [if_pos ha] at hn
        unfold hasField at hty
        rw [hsh.1, hsh.2] at hty
        simp only at hty
        cases v with
        | list vs =>
          simp only [Bool.and_eq_true] at hty
          obtain ⟨⟨rs, rfl⟩, e2⟩ := entries_of vs hty.2 hn.1
          refine ⟨⟨?_, i1⟩, ⟨by rw [if_pos ha]; exact ⟨rs, rfl⟩, i2⟩⟩
          rw [if_pos ha]
          show hasField older (olderField c f) _ = true
          unfold hasField
          rw [olderField_shape, hsh.1]
          have : (olderField c f).alts = [.ref "ExclusiveAreaRef"] := by
            unfold olderField; rw [hat, if_pos ha]
          rw [this]
          simp only [areaRefs, Bool.and_eq_true]
          refine ⟨⟨?_, rfl⟩, e2⟩
          simpa using hty.1.1
        | _ => simp at hty
      · rw [if_neg ha] at hn
        have hol : olderField c f = f := by unfold olderField; rw [hat, if_neg ha]
        rw [Option.map_some, hol, if_neg ha]
        suffices hs : hasField older f (lower v) = true ∧ Form v from
          ⟨⟨hs.1, i1⟩, ⟨by rw [if_neg ha]; exact hs.2, i2⟩⟩
        unfold hasField at hty ⊢
        split at hty
        · simp only [List.any_eq_true] at hty ⊢
          obtain ⟨a, ha', hva⟩ := hty
          exact ⟨⟨a, ha', (j1 a hva hn.1).1⟩, (j1 a hva hn.1).2⟩
        all_goals
          cases v with
          | list vs =>
            simp only [Bool.and_eq_true] at hty
            obtain ⟨k1, k2⟩ := j2 vs f.alts rfl hty.2 hn.1
            refine ⟨?_, k2⟩
            simp only [lower, Bool.and_eq_true]
            refine ⟨?_, k1⟩
            rw [lowerList_map]
            simpa [List.all_map, Function.comp_def, notStr_lower, ← List.map_tail] using hty.1
          | _ => simp at hty
theorem has_lowerList (alts : List (STy Cls)) : ∀ vs : List (Val Cls),
    hasList tables alts vs = true → areasNamedList vs = true →
    hasList older alts (lowerList vs) = true ∧ FormList vs
  | [], _, _ => by simp [lowerList, hasList, FormList]
  | v :: vs, h, hn => by
    simp only [hasList, Bool.and_eq_true, List.any_eq_true] at h
    simp only [areasNamedList, Bool.and_eq_true] at hn
    obtain ⟨i1, i2⟩ := has_lowerList alts vs h.2 hn.2
    obtain ⟨⟨a, ha, hva⟩, -⟩ := h
    obtain ⟨j1, j2⟩ := (has_lower v).1 a hva hn.1
    simp only [lowerList, hasList, Bool.and_eq_true, List.any_eq_true, FormList]
    exact ⟨⟨⟨a, ha, j1⟩, i1⟩, j2, i2⟩
end

/-! ### There and back -/

theorem areas_back (rs : List Verif.Ref.RefObj) :
    areaRefs (.list (rs.map entry)) = .list (rs.map .ref) ∧
      areasOf (.list (rs.map .ref)) = .list (rs.map entry) := by
  constructor
  · simp only [areaRefs, List.map_map, Val.list.injEq]
    exact List.map_congr_left fun r _ => by simp [areaRef, entry, dictGet]
  · simp only [areasOf, List.map_map, Val.list.injEq]
    exact List.map_congr_left fun r _ => by simp [areaOf, entry]

mutual
theorem raise_lower : ∀ v : Val Cls, Form v → raise (lower v) = v
  | .obj c fs, h => by
    simp only [Form] at h
    simp only [lower, raise, raise_lowerFields c fs h]
  | .list vs, h => by
    simp only [Form] at h
    simp only [lower, raise, raise_lowerList vs h]
  | .str _, _ | .bool _, _ | .num _, _ | .numval _, _ | .enum _, _ | .limit _ _, _ | .ref _, _ => by
    simp [lower, raise]
theorem raise_lowerFields (c : Cls) : ∀ fs : List (String × Val Cls), FormFields c fs →
    raiseFields c (lowerFields c fs) = fs
  | [], _ => by simp [lowerFields, raiseFields]
  | (k, v) :: rest, h => by
    simp only [FormFields] at h
    simp only [lowerFields, raiseFields, raise_lowerFields c rest h.2]
    by_cases ha : isAreas c k = true
    · rw [if_pos ha] at h
      obtain ⟨⟨rs, rfl⟩, -⟩ := h
      rw [if_pos ha, if_pos ha, (areas_back rs).1, (areas_back rs).2]
    · rw [if_neg ha] at h
      rw [if_neg ha, if_neg ha, raise_lower v h.1]
theorem raise_lowerList : ∀ vs : List (Val Cls), FormList vs → raiseList (lowerList vs) = vs
  | [], _ => by simp [lowerList, raiseList]
  | v :: vs, h => by
    simp only [FormList] at h
    simp only [lowerList, raiseList, raise_lower v h.1, raise_lowerList vs h.2]
end

/-! ### What reading gives -/

theorem cut_older (c : Cls) (k : String) (v : Val Cls) :
    cutAt (older.schema c) k v = if k ∈ firstOnly c then onlyFirst v else v := by
  rw [← cut_first]
  show cutAt ((covered c).map (olderField c)) k v = _
  unfold cutAt
  rw [fieldOf_older]
  cases fieldOf (covered c) k with
  | none => rfl
  | some f =>
    simp only [Option.map_some]
    unfold Field.cut
    rw [olderField_shape]

theorem num_older (c : Cls) (k : String) :
    numField (older.schema c) k = numField (covered c) k := by
  show numField ((covered c).map (olderField c)) k = _
  unfold numField
  rw [fieldOf_older]
  cases hfo : fieldOf (covered c) k with
  | none => rfl
  | some f =>
    simp only [Option.map_some]
    by_cases ha : isAreas c k = true
    · have hsh := areas_field ha
      rw [hfo] at hsh
      simp only [Option.map_some, Option.some.injEq, Prod.mk.injEq] at hsh
      have : (olderField c f).alts = [.ref "ExclusiveAreaRef"] := by
        unfold olderField; rw [(fieldOf_mem hfo).2, if_pos ha]
      rw [this, hsh.2]
      rfl
    · have hol : olderField c f = f := by
        unfold olderField; rw [(fieldOf_mem hfo).2, if_neg ha]
      rw [hol]

theorem areas_kept {c : Cls} {k : String} (h : isAreas c k = true) :
    k ∉ lossy c ∧ k ∉ firstOnly c := by
  simp only [isAreas, Bool.and_eq_true, Bool.or_eq_true, decide_eq_true_eq] at h
  obtain ⟨rfl, rfl | rfl⟩ := h <;> decide +kernel

theorem norm_entry (b : Bool) (r : Verif.Ref.RefObj) : normVal tables b (entry r) = entry r := by
  have h : "exclusive_area" ∉ tables.lost .ExclusiveAreaRefConditional := by decide +kernel
  have h2 : "exclusive_area" ∉ firstOnly .ExclusiveAreaRefConditional := by decide +kernel
  simp only [entry, normVal, normFields, if_neg h]
  rw [show tables.schema .ExclusiveAreaRefConditional = covered .ExclusiveAreaRefConditional from rfl,
    cut_first, if_neg h2]

theorem norm_entries (b : Bool) (rs : List Verif.Ref.RefObj) :
    normVal tables b (.list (rs.map entry)) = .list (rs.map entry) ∧
      normVal older b (.list (rs.map .ref)) = .list (rs.map .ref) := by
  simp only [normVal, Val.list.injEq]
  constructor
  · induction rs with
    | nil => rfl
    | cons r rs ih => simp only [List.map_cons, normList, norm_entry, ih]
  · induction rs with
    | nil => rfl
    | cons r rs ih => simp only [List.map_cons, normList, normVal, ih]

theorem lower_first (v : Val Cls) : lower (onlyFirst v) = onlyFirst (lower v) := by
  cases v with
  | list vs => cases vs <;> simp [lower, lowerList, onlyFirst]
  | _ => simp [lower, onlyFirst]

theorem form_first {v : Val Cls} (h : Form v) : Form (onlyFirst v) := by
  cases v with
  | list vs =>
    cases vs with
    | nil => exact h
    | cons v vs =>
      simp only [Form, FormList] at h
      simpa [onlyFirst, Form, FormList] using h.1
  | _ => exact h

mutual
theorem norm_lower (b : Bool) : ∀ v : Val Cls, Form v →
    normVal older b (lower v) = lower (normVal tables b v) ∧ Form (normVal tables b v)
  | .obj c fs, h => by
    simp only [Form] at h
    obtain ⟨h1, h2⟩ := norm_lowerFields c fs h
    simp only [lower, normVal, h1, Form]
    exact ⟨trivial, h2⟩
  | .list vs, h => by
    simp only [Form] at h
    obtain ⟨h1, h2⟩ := norm_lowerList b vs h
    simp only [lower, normVal, h1, Form]
    exact ⟨trivial, h2⟩
  | .str _, _ | .bool _, _ | .num _, _ | .numval _, _ | .enum _, _ | .limit _ _, _ | .ref _, _ => by
    simp [lower, normVal, Form]
theorem norm_lowerFields (c : Cls) : ∀ fs : List (String × Val Cls), FormFields c fs →
    normFields older c (lowerFields c fs) = lowerFields c (normFields tables c fs) ∧
      FormFields c (normFields tables c fs)
  | [], _ => by simp [lowerFields, normFields, FormFields]
  | (k, v) :: rest, h => by
    simp only [FormFields] at h
    obtain ⟨i1, i2⟩ := norm_lowerFields c rest h.2
    simp only [lowerFields, normFields]
    rw [show older.lost c = lossy c from rfl, show tables.lost c = lossy c from rfl]
    by_cases hl : k ∈ lossy c
    · rw [if_pos hl, if_pos hl]
      exact ⟨i1, i2⟩
    · rw [if_neg hl, if_neg hl, cut_older, num_older,
        show tables.schema c = covered c from rfl, cut_first]
      simp only [lowerFields, FormFields, i1]
      by_cases ha : isAreas c k = true
      · rw [if_pos ha] at h
        obtain ⟨⟨rs, rfl⟩, -⟩ := h
        have hk := (areas_kept ha).2
        simp only [if_pos ha, if_neg hk, (areas_back rs).1, (norm_entries _ rs).1,
          (norm_entries _ rs).2]
        exact ⟨trivial, ⟨rs, rfl⟩, i2⟩
      · rw [if_neg ha] at h
        obtain ⟨j1, j2⟩ := norm_lower (numField (covered c) k) v h.1
        simp only [if_neg ha, j1]
        by_cases hk : k ∈ firstOnly c
        · simp only [if_pos hk, lower_first]
          exact ⟨trivial, form_first j2, i2⟩
        · simp only [if_neg hk]
          exact ⟨trivial, j2, i2⟩
theorem norm_lowerList (b : Bool) : ∀ vs : List (Val Cls), FormList vs →
    normList older b (lowerList vs) = lowerList (normList tables b vs) ∧
      FormList (normList tables b vs)
  | [], _ => by simp [lowerList, normList, FormList]
  | v :: vs, h => by
    simp only [FormList] at h
    obtain ⟨i1, i2⟩ := norm_lowerList b vs h.2
    obtain ⟨j1, j2⟩ := norm_lower b v h.1
    simp only [lowerList, normList, FormList, i1, j1]
    exact ⟨trivial, j2, i2⟩
end

/-! ### Text without escapes -/

theorem plain_entries (rs : List Verif.Ref.RefObj)
    (h : plainVal xmlAttrs (.list (rs.map entry)) = true) :
    plainVal xmlAttrs (.list (rs.map (Val.ref (C := Cls)))) = true := by
  simp only [plainVal] at h ⊢
  induction rs with
  | nil => rfl
  | cons r rs ih =>
    simp only [List.map_cons, plainList, Bool.and_eq_true] at h ⊢
    refine ⟨?_, ih h.2⟩
    simp only [entry, plainVal, plainFields, Bool.and_eq_true] at h
    simpa [plainVal] using h.1.1.1

mutual
theorem plain_lower : ∀ v : Val Cls, Form v → plainVal xmlAttrs v = true →
    plainVal xmlAttrs (lower v) = true
  | .obj c fs, h, hp => by
    simp only [Form] at h
    simp only [plainVal, lower] at hp ⊢
    exact plain_lowerFields c fs h hp
  | .list vs, h, hp => by
    simp only [Form] at h
    simp only [plainVal, lower] at hp ⊢
    exact plain_lowerList vs h hp
  | .str _, _, hp | .bool _, _, hp | .num _, _, hp | .numval _, _, hp | .enum _, _, hp
  | .limit _ _, _, hp | .ref _, _, hp => by simpa [lower] using hp
theorem plain_lowerFields (c : Cls) : ∀ fs : List (String × Val Cls), FormFields c fs →
    plainFields xmlAttrs fs = true → plainFields xmlAttrs (lowerFields c fs) = true
  | [], _, _ => by simp [lowerFields, plainFields]
  | (k, v) :: rest, h, hp => by
    simp only [FormFields] at h
    simp only [plainFields, lowerFields, Bool.and_eq_true] at hp ⊢
    refine ⟨?_, plain_lowerFields c rest h.2 hp.2⟩
    by_cases ha : isAreas c k = true
    · rw [if_pos ha] at h
      obtain ⟨⟨rs, rfl⟩, -⟩ := h
      rw [if_pos ha, (areas_back rs).1]
      exact ⟨plain_entries rs hp.1.1, by simp⟩
    · rw [if_neg ha] at h
      rw [if_neg ha]
      refine ⟨plain_lower v h.1 hp.1.1, ?_⟩
      have := hp.1.2
      cases v <;> simp [lower] at this ⊢
      exact this
theorem plain_lowerList : ∀ vs : List (Val Cls), FormList vs → plainList xmlAttrs vs = true →
    plainList xmlAttrs (lowerList vs) = true
  | [], _, _ => by simp [lowerList, plainList]
  | v :: vs, h, hp => by
    simp only [FormList] at h
    simp only [plainList, lowerList, Bool.and_eq_true] at hp ⊢
    exact ⟨plain_lower v h.1 hp.1, plain_lowerList vs h.2 hp.2⟩
end

/-! ### Single elements -/

theorem lower_obj (c : Cls) (fs : List (String × Val Cls)) :
    lower (.obj c fs) = .obj c (lowerFields c fs) := by rw [lower]

/-- What is written for an object can be written with the tables of the version. -/
theorem wf_for (n : Nat) {c : Cls} {v : Val Cls} (h : WellFormed c v)
    (ha : n < 50 → areasNamed v = true) : Wf (tablesFor n) c (lowerFor n v) := by
  unfold tablesFor lowerFor
  by_cases hn : n < 50
  · rw [if_pos hn, if_pos hn]
    obtain ⟨h1, h2⟩ := (has_lower v).1 _ h.1 (ha hn)
    exact ⟨h1, plain_lower v h2 h.2⟩
  · rw [if_neg hn, if_neg hn]
    exact h

/-- What is read is, in every version, what is read from version 50 on. -/
theorem norm_for (n : Nat) (b : Bool) {c : Cls} {v : Val Cls} (h : WellFormed c v)
    (ha : n < 50 → areasNamed v = true) :
    raiseFor n (normVal (tablesFor n) b (lowerFor n v)) = normVal tables b v := by
  unfold tablesFor lowerFor raiseFor
  by_cases hn : n < 50
  · rw [if_pos hn, if_pos hn, if_pos hn]
    obtain ⟨h1, h2⟩ := (has_lower v).1 _ h.1 (ha hn)
    obtain ⟨h3, h4⟩ := norm_lower b v h2
    rw [h3, raise_lower _ h4]
  · rw [if_neg hn, if_neg hn, if_neg hn]

theorem elem_rt (n : Nat) {c : Cls} {tag ty : Option String} (ht : topOk c tag ty = true)
    {v : Val Cls} (h : WellFormed c v) (ha : n < 50 → areasNamed v = true) :
    ∃ text, writeStrElem n tag v = .ok text ∧
      readStrElem n ty text = .ok (normVal tables false v) := by
  have hwf := wf_for n h ha
  have hnf := norm_for n false h ha
  simp only [topOk, Bool.and_eq_true] at ht
  obtain ⟨hs, ht⟩ := ht
  split at ht
  · simp at ht
  rename_i w hw
  simp only [Bool.and_eq_true] at ht
  obtain ⟨hc, ht⟩ := ht
  split at ht
  · simp at ht
  rename_i t hm
  split at ht
  · simp at ht
  rename_i r hr
  have hp : (⟨c, w, tag, r⟩ : Pair Cls WM RM) ∈ pairs := by simpa using ht
  obtain ⟨x, tag', h1, h2, h3, -, h4⟩ := all_good (tablesFor n) pairs Sound.ok _ _ hp hwf.1
  simp only at h1 h2 h4
  rw [Sound.tag, hm] at h1
  obtain rfl : t = tag' := by simpa using h1
  have hx : Safe x := (all_safe (tablesFor n) Sound.safe _ hwf.2).2 w tag [x] hs h2 x (by simp)
  have hwv : writerOf v = some w := by
    cases v <;> simp [hasS, WellFormed] at h
    obtain ⟨⟨⟨rfl, -⟩, -⟩, -⟩ := h
    exact hw
  refine ⟨render 0 x, ?_, ?_⟩
  · unfold writeStrElem writeWith
    rw [hwv]
    simp only [hc, if_true, h2]
    rw [Verif.Props.Xml.C17_lines, joinLines_render]
  · have hpr := parse_render x hx [] (by simp)
    simp only [List.nil_append] at hpr
    obtain ⟨k, hk⟩ := rden_some (tablesFor n) none 0 x
    obtain ⟨as, ds, hd⟩ : ∃ as ds, domOf 0 x = .elem (xtag x) as ds := by
      cases x <;> exact ⟨_, _, rfl⟩
    unfold readStrElem
    rw [hpr, hd]
    simp only [h3, hr]
    rw [h3] at hd
    unfold readWith
    rw [← hd, hk]
    simp only
    rw [h4 0 none k hk]
    simp only [hnf]

/-! ### Names -/

theorem nameOf_lower (c : Cls) (fs : List (String × Val Cls)) :
    nameOf (lowerFields c fs) = nameOf fs := by
  induction fs with
  | nil => rfl
  | cons p fs ih =>
    obtain ⟨k, v⟩ := p
    rw [lowerFields]
    by_cases hk : k = "name"
    · subst hk
      have : isAreas c "name" = false := by simp [isAreas]
      simp only [nameOf, dictGet, if_true, this]
      cases v <;> simp [lower]
    · simp only [nameOf, dictGet, Ne.symm hk, hk, if_false] at ih ⊢
      exact ih

theorem elemName_for (n : Nat) (v : Val Cls) : elemName (lowerFor n v) = elemName v := by
  unfold lowerFor
  split
  · cases v with
    | obj c fs => rw [lower_obj]; exact nameOf_lower c fs
    | _ => simp [lower, elemName]
  · rfl

theorem head_for (n : Nat) (head : List (String × Val Cls)) :
    .obj .Package (fieldsOf (lowerFor n (.obj .Package head))) = lowerFor n (.obj .Package head) := by
  unfold lowerFor
  split
  · rw [lower_obj]; rfl
  · rfl

theorem name_for (n : Nat) (p : Pkg) : (mapPkg (lowerFor n) p).name = p.name := by
  cases p with
  | mk head es ps =>
    simp only [mapPkg, Pkg.name, Pkg.head]
    have h := elemName_for n (.obj .Package head)
    rw [← head_for n head] at h
    exact h

theorem mapPkgs_map (f : Val Cls → Val Cls) (ps : List Pkg) : mapPkgs f ps = ps.map (mapPkg f) := by
  induction ps with
  | nil => rfl
  | cons p ps ih => simp [mapPkgs, ih]

theorem names_for (n : Nat) (ps : List Pkg) :
    (mapPkgs (lowerFor n) ps).map Pkg.name = ps.map Pkg.name := by
  rw [mapPkgs_map, List.map_map]
  exact List.map_congr_left fun p _ => name_for n p

theorem elemNames_for (n : Nat) (es : List (Val Cls)) :
    (es.map (lowerFor n)).map elemName = es.map elemName := by
  rw [List.map_map]
  exact List.map_congr_left fun v _ => elemName_for n v

/-! ### Packages -/

mutual
theorem pkg_wf (n : Nat) : ∀ p : Pkg, WellFormedPkg p → (n < 50 → areasNamedPkg p = true) →
    AnyPkg (tablesFor n) (mapPkg (lowerFor n) p) ∧ ReadablePkg true (mapPkg (lowerFor n) p) ∧
      DistinctPkg (mapPkg (lowerFor n) p)
  | .mk head es ps, h, ha => by
    obtain ⟨h1, h2, h3, h4⟩ := h
    have hes : n < 50 → ∀ v ∈ es, areasNamed v = true := by
      intro hn
      have := ha hn
      simp only [areasNamedPkg, Bool.and_eq_true, List.all_eq_true] at this
      exact this.1.2
    obtain ⟨i1, i2, i3⟩ := pkgs_wf n ps h4 (fun hn => by
      have := ha hn
      simp only [areasNamedPkg, Bool.and_eq_true] at this
      exact this.2)
    have hn1 := (List.nodup_append.1 h3)
    simp only [mapPkg, AnyPkg, ReadablePkg, DistinctPkg, head_for, elemNames_for]
    refine ⟨⟨wf_for n h1 fun hn => ?_, ?_, i1⟩, ⟨fun _ => hn1.1, ?_, ?_, i2⟩, hn1.1, i3⟩
    · have := ha hn
      simp only [areasNamedPkg, Bool.and_eq_true] at this
      exact this.1.1
    · intro v hv
      obtain ⟨u, hu, rfl⟩ := List.mem_map.1 hv
      obtain ⟨c, hc, hw⟩ := h2 u hu
      exact ⟨c, hc, wf_for n hw fun hn => hes hn u hu⟩
    · rw [names_for]; exact hn1.2.1
    · intro p hp hm
      have : p.name ∈ ps.map Pkg.name := by
        rw [← names_for n]; exact List.mem_map_of_mem hp
      exact hn1.2.2 _ hm _ this rfl
theorem pkgs_wf (n : Nat) : ∀ ps : List Pkg, WellFormedPkgs ps →
    (n < 50 → areasNamedPkgs ps = true) →
    AnyPkgs (tablesFor n) (mapPkgs (lowerFor n) ps) ∧
      ReadablePkgs true (mapPkgs (lowerFor n) ps) ∧ DistinctPkgs (mapPkgs (lowerFor n) ps)
  | [], _, _ => by simp [mapPkgs, AnyPkgs, ReadablePkgs, DistinctPkgs]
  | p :: ps, h, ha => by
    obtain ⟨i1, i2, i3⟩ := pkg_wf n p h.1 (fun hn => by
      have := ha hn
      simp only [areasNamedPkgs, Bool.and_eq_true] at this
      exact this.1)
    obtain ⟨j1, j2, j3⟩ := pkgs_wf n ps h.2 (fun hn => by
      have := ha hn
      simp only [areasNamedPkgs, Bool.and_eq_true] at this
      exact this.2)
    simp only [mapPkgs, AnyPkgs, ReadablePkgs, DistinctPkgs]
    exact ⟨⟨i1, j1⟩, ⟨i2, j2⟩, i3, j3⟩
end

mutual
theorem pkg_norm (n : Nat) : ∀ p : Pkg, WellFormedPkg p → (n < 50 → areasNamedPkg p = true) →
    mapPkg (raiseFor n) (normPkg (tablesFor n) (mapPkg (lowerFor n) p)) = Codec.normPkg p
  | .mk head es ps, h, ha => by
    obtain ⟨h1, h2, -, h4⟩ := h
    have ha' : n < 50 → (areasNamed (.obj .Package head) = true ∧ (∀ v ∈ es, areasNamed v = true)) ∧
        areasNamedPkgs ps = true := by
      intro hn
      have := ha hn
      simpa only [areasNamedPkg, Bool.and_eq_true, List.all_eq_true] using this
    simp only [mapPkg, normPkg, Codec.normPkg, Pkg.mk.injEq, List.map_map]
    refine ⟨?_, ?_, pkgs_norm n ps h4 fun hn => (ha' hn).2⟩
    · have h := norm_for n false h1 fun hn => (ha' hn).1.1
      rw [← head_for, normVal, normVal] at h
      rw [h]
      rfl
    · refine List.map_congr_left fun v hv => ?_
      obtain ⟨c, -, hw⟩ := h2 v hv
      exact norm_for n false hw fun hn => (ha' hn).1.2 v hv
theorem pkgs_norm (n : Nat) : ∀ ps : List Pkg, WellFormedPkgs ps →
    (n < 50 → areasNamedPkgs ps = true) →
    mapPkgs (raiseFor n) (normPkgs (tablesFor n) (mapPkgs (lowerFor n) ps)) = Codec.normPkgs ps
  | [], _, _ => rfl
  | p :: ps, h, ha => by
    have ha' : n < 50 → areasNamedPkg p = true ∧ areasNamedPkgs ps = true := by
      intro hn
      have := ha hn
      simpa only [areasNamedPkgs, Bool.and_eq_true] using this
    simp only [mapPkgs, normPkgs, Codec.normPkgs]
    rw [pkg_norm n p h.1 fun hn => (ha' hn).1, pkgs_norm n ps h.2 fun hn => (ha' hn).2]
end

mutual
theorem readable_any : ∀ (stop : Bool) (p : Pkg), ReadablePkg true p → ReadablePkg stop p
  | stop, .mk _ _ ps, h => ⟨fun _ => h.1 rfl, h.2.1, h.2.2.1, readables_any stop ps h.2.2.2⟩
theorem readables_any : ∀ (stop : Bool) (ps : List Pkg), ReadablePkgs true ps → ReadablePkgs stop ps
  | _, [], _ => trivial
  | stop, p :: ps, h => ⟨readable_any stop p h.1, readables_any stop ps h.2⟩
end

theorem mapPkgs_empty (f : Val Cls → Val Cls) (ps : List Pkg) :
    (mapPkgs f ps).isEmpty = ps.isEmpty := by cases ps <;> rfl

theorem side_for {m n : Nat} (h : SameSide m n) :
    tablesFor m = tablesFor n ∧ raiseFor m = raiseFor n := by
  unfold tablesFor
  have : raiseFor m = fun v => if m < 50 then raise v else v := rfl
  rw [this]
  have : raiseFor n = fun v => if n < 50 then raise v else v := rfl
  rw [this]
  simp only [SameSide] at h
  simp only [h, and_self]

theorem doc_rt (skip stop : Bool) (version : Nat) (doc : Document)
    (h : WellFormedPkgs doc.packages) (hn : (doc.packages.map Pkg.name).Nodup)
    (ha : doc.schemaVersion < 50 → areasNamedPkgs doc.packages = true)
    (hv : skip = true → SameSide version doc.schemaVersion) :
    ∃ text, writeDoc skip doc = .ok text ∧
      readDoc stop version text =
        .ok ⟨if skip then version else doc.schemaVersion, Codec.normPkgs doc.packages⟩ := by
  obtain ⟨w1, w2, w3⟩ := pkgs_wf doc.schemaVersion doc.packages h ha
  obtain ⟨xs, text, ds, a1, a2, a3, a4⟩ :=
    doc_any (T := tablesFor doc.schemaVersion) skip stop doc.schemaVersion w1
  refine ⟨text, ?_, ?_⟩
  · unfold writeDoc
    rw [a1]
    rw [mapPkgs_empty] at a2
    exact a2
  · unfold readDoc
    rw [a3]
    simp only [readTree]
    rw [root_version]
    have hs : SameSide (if skip then version else doc.schemaVersion) doc.schemaVersion := by
      cases skip with
      | true => exact hv rfl
      | false => exact Iff.rfl
    rw [(side_for hs).1, (side_for hs).2]
    have h4 := a4 (readables_any stop _ w2) (by rw [names_for]; exact hn)
    unfold nodesOf at h4
    rw [h4, firstsAll_distinct _ w3]
    simp only [pkgs_norm doc.schemaVersion doc.packages h ha]

/-! ### From version 50 on -/

mutual
theorem writePkg_eq : ∀ p : Pkg, writePkg tables p = Codec.writePkg p
  | .mk head es ps => by
    rw [writePkg, Codec.writePkg, writePkgs_eq ps]
    rfl
theorem writePkgs_eq : ∀ ps : List Pkg, writePkgs tables ps = Codec.writePkgs ps
  | [] => rfl
  | p :: ps => by rw [writePkgs, Codec.writePkgs, writePkg_eq p, writePkgs_eq ps]; rfl
end

mutual
theorem pden_eq (stop : Bool) : ∀ (tail : Option String) (d : Dom),
    pden tables stop tail d = Codec.pden stop tail d
  | tail, .elem tag as ds => by
    rw [pden, Codec.pden, pdenKids_eq stop ds]
    rfl
  | tail, .text _ => by rw [pden, Codec.pden]
theorem pdenKids_eq (stop : Bool) : ∀ ds : List Dom,
    pdenKids tables stop ds = Codec.pdenKids stop ds
  | [] => by rw [pdenKids, Codec.pdenKids]
  | d :: ds => by rw [pdenKids, Codec.pdenKids, pden_eq stop _ d, pdenKids_eq stop ds]; rfl
end

mutual
theorem mapPkg_id : ∀ p : Pkg, mapPkg (fun v => v) p = p
  | .mk head es ps => by simp [mapPkg, mapPkgs_id ps, fieldsOf]
theorem mapPkgs_id : ∀ ps : List Pkg, mapPkgs (fun v => v) ps = ps
  | [] => rfl
  | p :: ps => by rw [mapPkgs, mapPkg_id p, mapPkgs_id ps]
end

theorem newer {n : Nat} (h : 50 ≤ n) :
    tablesFor n = tables ∧ lowerFor n = (fun v => v) ∧ raiseFor n = fun v => v := by
  have h' : ¬ n < 50 := by omega
  refine ⟨by unfold tablesFor; rw [if_neg h'], ?_, ?_⟩ <;> funext v
  · unfold lowerFor; rw [if_neg h']
  · unfold raiseFor; rw [if_neg h']

theorem writeDoc_newer (skip : Bool) {doc : Document} (h : 50 ≤ doc.schemaVersion) :
    writeDoc skip doc = Codec.writeDoc skip doc := by
  obtain ⟨h1, h2, h3⟩ := newer h
  unfold writeDoc Codec.writeDoc
  rw [h1, h2, mapPkgs_id, writePkgs_eq]
  rfl

theorem readTree_newer (stop : Bool) (version : Nat) (tag : String) (as : Attrs) (ds : List Dom)
    (h : 50 ≤ readVersion version as) :
    readTree stop version (.elem tag as ds) = Codec.readTree stop version (.elem tag as ds) := by
  obtain ⟨h1, h2, h3⟩ := newer h
  simp only [readTree, Codec.readTree, h1, h3, pdenKids_eq]
  generalize readRoot [] _ = r
  cases r with
  | error e => rfl
  | ok ps => simp only [mapPkgs_id]

theorem writeStrElem_newer {n : Nat} (h : 50 ≤ n) (tag : Option String) (v : Val Cls) :
    writeStrElem n tag v = Codec.writeStrElem tag v := by
  obtain ⟨h1, h2, h3⟩ := newer h
  unfold writeStrElem Codec.writeStrElem
  rw [h1, h2]
  rfl

theorem readStrElem_newer {n : Nat} (h : 50 ≤ n) (ty : Option String) (text : List Char) :
    readStrElem n ty text = Codec.readStrElem ty text := by
  obtain ⟨h1, h2, h3⟩ := newer h
  unfold readStrElem Codec.readStrElem
  cases parseElement text with
  | none => rfl
  | some d =>
    cases d with
    | text _ => rfl
    | elem tag as ds =>
      simp only [readTreeElem, h1, h3]
      cases readerOf ty tag with
      | none => rfl
      | some m =>
        simp only
        cases readWith tables m (.elem tag as ds) <;> rfl

end Verif.Codec.Older
