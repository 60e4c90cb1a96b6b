import Verif.Enums.Model
/-
C16: enumeration texts round trip.
-/
namespace Verif.Props.Enums
open Verif Verif.Py Verif.Enums

/-- C16: whatever text a member is written as at a schema version, reading that text
for the same enumeration class at the same version gives the member back.  For every
member and every version number. -/
theorem C16_write_read (m : Member) (version : Nat) (text : String)
    (h : enumToXml m version = .ok text) : xmlToEnum m.cls text version = .ok m := by
  unfold enumToXml at h
  cases hr : rawText m with
  | error e => rw [hr] at h; simp at h
  | ok t =>
    rw [hr] at h
    simp only at h
    obtain ⟨he, hx⟩ := rawText_exists hr
    have ha := agrees_of_member he hx
    unfold agrees at ha
    rw [hr] at ha
    cases t with
    | plain t' =>
      simp only [selectText, Except.ok.injEq] at h
      simp only [decide_eq_true_eq] at ha
      subst h
      simp [xmlToEnum, ha, selectEntry]
    | versioned t' vs =>
      simp only [selectText] at h
      simp only [decide_eq_true_eq] at ha
      split at h
      · rename_i hv
        simp only [Except.ok.injEq] at h
        subst h
        simp [xmlToEnum, ha, selectEntry, hv]
      · simp at h

example : enumToXml ⟨"IntervalType", "CLOSED"⟩ 51 = .ok "CLOSED" := by decide +kernel
example : enumToXml ⟨"ArrayImplPolicy", "PAYLOAD_AS_ARRAY"⟩ 50 = .ok "PAYLOAD-AS-ARRAY" := by
  decide +kernel

/-- C16: no two members of one class are written with the same text, whatever the version. -/
theorem C16_texts_distinct (m m' : Member) (version : Nat) (text : String)
    (hc : m.cls = m'.cls)
    (h : enumToXml m version = .ok text) (h' : enumToXml m' version = .ok text) : m = m' := by
  have a := C16_write_read m version text h
  have b := C16_write_read m' version text h'
  rw [hc] at a
  rw [a] at b
  simpa using b

/-- C16: at the default schema version every member of every class that has an XML form
can be written. -/
theorem C16_total_at_default (m : Member) (hm : m.exists? = true) (hx : hasXml m.cls = true) :
    ∃ text, enumToXml m defaultVersion = .ok text := by
  have hall : (allXmlMembers.all fun m => (enumToXml m defaultVersion).isOk) = true := by
    decide +kernel
  have := List.all_eq_true.1 hall m (mem_allXmlMembers hm hx)
  cases he : enumToXml m defaultVersion with
  | ok t => exact ⟨t, rfl⟩
  | error e => rw [he] at this; simp [Except.isOk, Except.toBool] at this

example : (⟨"ServerArgImplPolicy", "USE_VOID"⟩ : Member).exists? = true ∧
    hasXml "ServerArgImplPolicy" = true := by decide +kernel

/-- C16: reading never yields a member of a different class, nor something that is not a
member; the text read is then the member's own text at that version, apart from five
input-only spellings of the axis categories (`COM_AXIS` for `COM-AXIS` and so on). -/
theorem C16_read_write (tn text : String) (version : Nat) (m : Member)
    (h : xmlToEnum tn text version = .ok m) :
    m.cls = tn ∧ m.exists? = true ∧
      ((tn, text) ∈ inputAliases ∨ enumToXml m version = .ok text) := by
  unfold xmlToEnum rawEntry at h
  cases h1 : dictGet xmlToEnumMap tn with
  | none => rw [h1] at h; simp at h
  | some mapping =>
    rw [h1] at h
    simp only at h
    cases h2 : dictGet mapping text with
    | none => rw [h2] at h; simp at h
    | some e =>
      rw [h2] at h
      simp only at h
      have m1 := dictGet_mem _ _ _ h1
      have m2 := dictGet_mem _ _ _ h2
      have hr := List.all_eq_true.1 (List.all_eq_true.1 all_reverse _ m1) _ m2
      have hs := List.all_eq_true.1 (List.all_eq_true.1 entries_same_class _ m1) _ m2
      simp only [Bool.and_eq_true, decide_eq_true_eq] at hs
      simp only [reverseAgrees, Bool.or_eq_true, decide_eq_true_eq, Bool.and_eq_true] at hr
      cases e with
      | plain m' =>
        simp only [selectEntry, Except.ok.injEq] at h
        subst h
        refine ⟨hs.1, hs.2, hr.imp id fun hx => ?_⟩
        simp only [decide_eq_true_eq] at hx
        simp [enumToXml, hx.2, selectText]
      | versioned m' vs =>
        simp only [selectEntry] at h
        split at h
        · rename_i hv
          simp only [Except.ok.injEq] at h
          subst h
          refine ⟨hs.1, hs.2, hr.imp id fun hx => ?_⟩
          simp only [decide_eq_true_eq] at hx
          simp [enumToXml, hx.2, selectText, hv]
        · simp at h

example : xmlToEnum "CalibrationAxisCategory" "COM_AXIS" 51 =
    .ok ⟨"CalibrationAxisCategory", "COM_AXIS"⟩ ∧
    enumToXml ⟨"CalibrationAxisCategory", "COM_AXIS"⟩ 51 = .ok "COM-AXIS" := by decide +kernel

/-- C16: a class without XML texts can be neither written nor read (`KeyError`). -/
theorem C16_no_xml (m : Member) (text : String) (version : Nat) (hx : hasXml m.cls = false) :
    enumToXml m version = .error .keyError ∧
      xmlToEnum m.cls text version = .error .keyError := by
  constructor
  · unfold hasXml dictHas at hx
    unfold enumToXml rawText
    cases h : dictGet enumToXmlMap m.cls with
    | none => rfl
    | some t => rw [h] at hx; simp at hx
  · unfold xmlToEnum rawEntry
    cases h : dictGet xmlToEnumMap m.cls with
    | none => rfl
    | some mp =>
      have hm := dictGet_mem _ _ _ h
      have hall : (xmlToEnumMap.all fun row => hasXml row.1) = true := by decide +kernel
      have := List.all_eq_true.1 hall _ hm
      rw [hx] at this
      simp at this

example : hasXml "PackageRole" = false := by decide +kernel

/-- C16: a versioned member is refused with `VersionError` outside its versions, both when
written and when read; the texts involved are exactly those of the one versioned class. -/
theorem C16_version_error (version : Nat) (name : String)
    (hm : (⟨"ArrayImplPolicy", name⟩ : Member).exists? = true)
    (hv : version ∉ [49, 50, 51]) :
    enumToXml ⟨"ArrayImplPolicy", name⟩ version = .error .versionError ∧
    ∃ text, enumToXml ⟨"ArrayImplPolicy", name⟩ defaultVersion = .ok text ∧
      xmlToEnum "ArrayImplPolicy" text version = .error .versionError := by
  have hx : hasXml "ArrayImplPolicy" = true := by decide +kernel
  have hall : ((allXmlMembers.filter fun m => m.cls = "ArrayImplPolicy").all fun m =>
      match rawText m with
      | .ok (.versioned t vs) => decide (vs = [49, 50, 51]) && decide (xmlToEnumMap ≠ []) &&
          decide (rawEntry "ArrayImplPolicy" t = .ok (.versioned m vs))
      | _ => false) = true := by decide +kernel
  have hmem : (⟨"ArrayImplPolicy", name⟩ : Member) ∈
      allXmlMembers.filter fun m => m.cls = "ArrayImplPolicy" :=
    List.mem_filter.2 ⟨mem_allXmlMembers hm hx, by simp⟩
  have h := List.all_eq_true.1 hall _ hmem
  cases hr : rawText ⟨"ArrayImplPolicy", name⟩ with
  | error e => rw [hr] at h; simp at h
  | ok t =>
    rw [hr] at h
    cases t with
    | plain t => simp at h
    | versioned t vs =>
      simp only [Bool.and_eq_true, decide_eq_true_eq] at h
      obtain ⟨⟨hvs, -⟩, he⟩ := h
      subst hvs
      refine ⟨?_, t, ?_, ?_⟩
      · simp only [enumToXml, hr, selectText, if_neg hv]
      · simp [enumToXml, hr, selectText, defaultVersion]
      · simp only [xmlToEnum, he, selectEntry, if_neg hv]

example : (⟨"ArrayImplPolicy", "PAYLOAD_AS_ARRAY"⟩ : Member).exists? = true := by decide +kernel

end Verif.Props.Enums
