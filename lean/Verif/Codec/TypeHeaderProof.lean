import Verif.Codec.TypeHeader
import Verif.Codec.FindProof
import Verif.Impl.Lemmas
/-
What the implementation model reads is not changed by writing and reading, and references lead back.
-/
namespace Verif.Codec.TypeHeader
open Verif.Py Verif.Impl Verif.Impl.Spec Verif.Codec Verif.Codec.Spec Verif.Codec.Find
open Verif.Codec.FindSpec Verif.Pkg.Spec
open Verif.Codec.Owner (shortName refMethod clsOf)

/-! ### Attributes -/

theorem get_norm (c : Cls) (a : String) (h : kept? c a = true) (fs : List (String × Val Cls)) :
    dictGet (normFields tables c fs) a =
      (dictGet fs a).map (normVal tables (numField (tables.schema c) a)) := by
  have hl : a ∉ tables.lost c := by
    simp only [kept?, Bool.and_eq_true, decide_eq_true_eq] at h
    exact h.1
  induction fs with
  | nil => rfl
  | cons p fs ih =>
    obtain ⟨k, v⟩ := p
    rw [normFields]
    by_cases hk : k = a
    · subst hk
      rw [if_neg hl, cutAt_kept h]
      simp [dictGet]
    · by_cases hkl : k ∈ tables.lost c
      · rw [if_pos hkl]
        simpa only [dictGet, if_neg hk] using ih
      · rw [if_neg hkl]
        simpa only [dictGet, if_neg hk] using ih

theorem strOf_norm (b : Bool) (v : Option (Val Cls)) : strOf (v.map (normVal tables b)) = strOf v := by
  cases v with
  | none => rfl
  | some v => cases v <;> simp [normVal, strOf]

theorem refOf_norm (b : Bool) (v : Option (Val Cls)) : refOf (v.map (normVal tables b)) = refOf v := by
  cases v with
  | none => rfl
  | some v => cases v <;> simp [normVal, refOf]

theorem natOf_norm (v : Option (Val Cls)) : natOf (v.map (normVal tables false)) = natOf v := by
  cases v with
  | none => rfl
  | some v => cases v <;> simp [normVal, natOf]

theorem kept_list {c : Cls} {a : String} (h : kept? c a = true) (fs : List (String × Val Cls)) :
    members (.obj c (normFields tables c fs)) a =
      (members (.obj c fs) a).map (normVal tables (numField (tables.schema c) a)) := by
  simp only [members, get_norm c a h]
  cases dictGet fs a with
  | none => rfl
  | some v => cases v <;> simp [normVal, normList_map]

theorem variants_norm (b : Bool) (v : Option (Val Cls)) :
    variants (v.map (normVal tables b)) =
      (variants v).map fun vs => vs.map (normVal tables false) := by
  cases v with
  | none => rfl
  | some v =>
    cases v with
    | obj c fs =>
      cases c with
      | SwDataDefProps =>
        simp only [Option.map_some, normVal, variants]
        rw [kept_list (by decide +kernel)]
        rw [show numField (tables.schema Cls.SwDataDefProps) "variants" = false by decide +kernel]
      | _ => simp [normVal, variants]
    | _ => simp [normVal, variants]

/-- The attributes that are read. -/
def readNames : List String :=
  ["name", "category", "native_declaration", "type_emitter", "symbol_props", "symbol",
   "sw_data_def_props", "base_type_ref", "impl_data_type_ref", "ptr_target_props", "target_category",
   "array_size", "array_impl_policy", "array_size_handling", "array_size_semantics", "sub_elements"]

theorem read_kept (c : Cls) : ∀ a ∈ readNames, kept? c a = true := by
  have h : ∀ n < 186, ∀ a ∈ readNames, kept? (Cls.ofNat n) a = true := by decide +kernel
  have := h c.ctorIdx (by cases c <;> decide)
  rwa [Cls.ofNat_ctorIdx] at this

theorem size_num (c : Cls) : numField (tables.schema c) "array_size" = false := by
  have h : ∀ n < 186, numField (tables.schema (Cls.ofNat n)) "array_size" = false := by decide +kernel
  have := h c.ctorIdx (by cases c <;> decide)
  rwa [Cls.ofNat_ctorIdx] at this

theorem attr_norm (b : Bool) (v : Val Cls) (a : String) (ha : a ∈ readNames) :
    ∃ b', attr (normVal tables b v) a = (attr v a).map (normVal tables b') := by
  cases v with
  | obj c fs => exact ⟨_, get_norm c a (read_kept c a ha) fs⟩
  | _ => exact ⟨false, by simp [normVal, attr]⟩

theorem str_attr (b : Bool) (v : Val Cls) (a : String) (ha : a ∈ readNames) :
    strOf (attr (normVal tables b v) a) = strOf (attr v a) := by
  obtain ⟨b', h⟩ := attr_norm b v a ha
  rw [h, strOf_norm]

theorem ref_attr (b : Bool) (v : Val Cls) (a : String) (ha : a ∈ readNames) :
    refOf (attr (normVal tables b v) a) = refOf (attr v a) := by
  obtain ⟨b', h⟩ := attr_norm b v a ha
  rw [h, refOf_norm]

theorem some_attr (b : Bool) (v : Val Cls) (a : String) (ha : a ∈ readNames) :
    (attr (normVal tables b v) a).isSome = (attr v a).isSome := by
  obtain ⟨b', h⟩ := attr_norm b v a ha
  rw [h, Option.isSome_map]

theorem size_attr (b : Bool) (v : Val Cls) :
    natOf (attr (normVal tables b v) "array_size") = natOf (attr v "array_size") := by
  cases v with
  | obj c fs =>
    simp only [normVal, attr]
    rw [get_norm c _ (read_kept c _ (by decide)) fs, size_num, natOf_norm]
  | _ => simp [normVal, attr]

theorem name_attr (b : Bool) (v : Val Cls) : shortName (normVal tables b v) = shortName v := by
  cases v with
  | obj c fs =>
    simp only [normVal, shortName]
    rw [get_norm c _ (read_kept c "name" (by decide)) fs]
    cases dictGet fs "name" with
    | none => rfl
    | some v => cases v <;> simp [normVal]
  | _ => simp [normVal, shortName]

theorem ptr_norm (b : Bool) (v : Option (Val Cls)) : ptrOf (v.map (normVal tables b)) = ptrOf v := by
  cases v with
  | none => rfl
  | some v =>
    cases v with
    | obj c fs =>
      cases c with
      | SwPointerTargetProps =>
        simp only [Option.map_some, normVal, ptrOf]
        rw [get_norm _ _ (read_kept _ "target_category" (by decide)),
          get_norm _ _ (read_kept _ "sw_data_def_props" (by decide)), strOf_norm, variants_norm]
        simp only [Option.map_map, Function.comp_def, List.map_map,
          ref_attr false _ "base_type_ref" (by decide), ref_attr false _ "impl_data_type_ref" (by decide)]
      | _ => simp [normVal, ptrOf]
    | _ => simp [normVal, ptrOf]

theorem props_norm (b : Bool) (v : Val Cls) : propsOf (normVal tables b v) = propsOf v := by
  obtain ⟨b', h⟩ := attr_norm b v "ptr_target_props" (by decide)
  simp only [propsOf, ref_attr b v "base_type_ref" (by decide),
    ref_attr b v "impl_data_type_ref" (by decide), h, ptr_norm]

theorem all_norm (b : Bool) (v : Val Cls) : allProps (normVal tables b v) = allProps v := by
  obtain ⟨b', h⟩ := attr_norm b v "sw_data_def_props" (by decide)
  simp only [allProps, h, variants_norm, Option.map_map, Function.comp_def, List.map_map, props_norm]

theorem sub_norm (b : Bool) (v : Val Cls) : subOf (normVal tables b v) = subOf v := by
  simp only [subOf, name_attr, str_attr b v "category" (by decide), all_norm, size_attr,
    some_attr b v "array_impl_policy" (by decide), some_attr b v "array_size_handling" (by decide),
    some_attr b v "array_size_semantics" (by decide)]

theorem symbol_norm (b : Bool) (v : Option (Val Cls)) :
    symbolText (v.map (normVal tables b)) = symbolText v := by
  cases v with
  | none => rfl
  | some v =>
    cases v with
    | obj c fs =>
      cases c with
      | SymbolProps =>
        simp only [Option.map_some, normVal, symbolText]
        rw [get_norm _ _ (read_kept _ "symbol" (by decide)), strOf_norm]
      | _ => simp [normVal, symbolText]
    | _ => simp [normVal, symbolText]

theorem typeOf_norm (b : Bool) (ref : String) (v : Val Cls) :
    typeOf ref (normVal tables b v) = typeOf ref v := by
  cases v with
  | obj c fs =>
    obtain ⟨b', h⟩ := attr_norm b (.obj c fs) "symbol_props" (by decide)
    have h1 := name_attr b (.obj c fs)
    have h2 := fun a ha => str_attr b (.obj c fs) a ha
    have h3 := all_norm b (.obj c fs)
    have h4 := kept_list (read_kept c "sub_elements" (by decide)) fs
    rw [normVal] at h h1 h2 h3 ⊢
    cases c with
    | SwBaseType => simp only [typeOf, h1, h2 "native_declaration" (by decide)]
    | ImplementationDataType =>
      simp only [typeOf, h1, h2 "category" (by decide), h2 "type_emitter" (by decide), h3, h,
        symbol_norm, h4, List.map_map, Function.comp_def, sub_norm]
    | _ => rfl
  | _ => simp [normVal, typeOf]

theorem cls_norm (b : Bool) (v : Val Cls) : clsOf (normVal tables b v) = clsOf v := by
  cases v <;> simp [normVal, clsOf]

theorem partOf_norm (b b' : Bool) (ref : String) (v x : Val Cls) :
    partOf ref (normVal tables b v) (normVal tables b' x) = partOf ref v x := by
  simp only [partOf, cls_norm, name_attr]

/-! ### Places -/

/-- The place after writing and reading. -/
def normPlace : Place → Place
  | .pkg way p => .pkg way (normPkg p)
  | .element way v => .element way (normVal tables false v)
  | .part way v x => .part way (normVal tables false v) (normVal tables false x)

theorem foundAs_norm (x : Place) : foundAs (normPlace x) = foundAs x := by
  cases x with
  | pkg => rfl
  | element way v => exact typeOf_norm _ _ _
  | part way v x => exact partOf_norm _ _ _ _ _

mutual
theorem locatePkg_norm : ∀ (acc : List String) (p : Pkg) (ref : List Char),
    locatePkg acc (normPkg p) ref = (locatePkg acc p ref).map fun r => r.map normPlace
  | acc, .mk h es ps, ref => by
    rw [normPkg, locatePkg, locatePkg, named_norm]
    cases named es (String.ofList (partL '/' (stripLead '/' ref)).1) with
    | none =>
      simp only [Option.map_none]
      exact locatePkgs_norm acc ps _
    | some v =>
      simp only [Option.map_some]
      split
      · rw [elemFind_norm]
        cases elemFind v (partL '/' (stripLead '/' ref)).2 with
        | error e => rfl
        | ok r => cases r <;> rfl
      · rfl
theorem locatePkgs_norm : ∀ (acc : List String) (ps : List Pkg) (parts : List Char × List Char),
    locatePkgs acc (normPkgs ps) parts = (locatePkgs acc ps parts).map fun r => r.map normPlace
  | _, [], _ => rfl
  | acc, p :: ps, parts => by
    rw [normPkgs, locatePkgs, locatePkgs, name_norm]
    split
    · split
      · exact locatePkg_norm _ p _
      · rfl
    · exact locatePkgs_norm acc ps parts
end

/-- The implementation model cannot tell the difference. -/
theorem env_norm (ps : List Pkg) : envOf (normPkgs ps) = envOf ps := by
  unfold envOf
  congr 1
  funext r
  have : locate (normPkgs ps) r = (locate ps r).map fun r => r.map normPlace :=
    locatePkgs_norm [] ps _
  rw [this]
  cases locate ps r with
  | error e => rfl
  | ok x =>
    cases x with
    | none => rfl
    | some x => simp only [Except.map, Option.map_some, foundAs_norm]

/-! ### Where things are -/

/-- What is found. -/
def Place.item : Place → Item
  | .pkg _ p => .pkg p
  | .element _ v => .obj v
  | .part _ _ x => .obj x

mutual
theorem locatePkg_item : ∀ (acc : List String) (p : Pkg) (ref : List Char),
    (locatePkg acc p ref).map (fun r => r.map Place.item) = findPkg p ref
  | acc, .mk h es ps, ref => by
    rw [locatePkg, findPkg]
    cases named es (String.ofList (partL '/' (stripLead '/' ref)).1) with
    | none => exact locatePkgs_item acc ps _
    | some v =>
      simp only
      split
      · cases elemFind v (partL '/' (stripLead '/' ref)).2 with
        | error e => rfl
        | ok r => cases r <;> rfl
      · rfl
theorem locatePkgs_item : ∀ (acc : List String) (ps : List Pkg) (parts : List Char × List Char),
    (locatePkgs acc ps parts).map (fun r => r.map Place.item) = findPkgs ps parts
  | _, [], _ => rfl
  | acc, p :: ps, parts => by
    rw [locatePkgs, findPkgs]
    split
    · split
      · exact locatePkg_item _ p _
      · rfl
    · exact locatePkgs_item acc ps parts
end

/-- The same object as with `find`. -/
theorem locate_find (ps : List Pkg) (ref : String) :
    (locate ps ref).map (fun r => r.map Place.item) = find ps ref := locatePkgs_item [] ps _

end Verif.Codec.TypeHeader
