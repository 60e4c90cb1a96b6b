import Verif.Codec.Order
/-
C48: the order of the parts of an element, white space between elements and unknown elements make
no difference to what is read.
-/
namespace Verif.Props.CodecOrder
open Verif.Py Verif.Xml Verif.Xml.Spec Verif.Codec

theorem switch_usable : (readerSwitch.all fun tm => usable tm.2 tm.1) = true := by decide +kernel

theorem types_usable : (typeSwitch.all fun tm => usableAny (.meth tm.2)) = true := by decide +kernel

/-- C48 for `read_str_elem`, whatever XML parser is used: if the elements it makes of two texts are
alike, they are read as the same object, or raise the same error. -/
theorem C48_element_trees (typeName : Option String) (d d' : Dom) (h : Alike d d') :
    readTreeElem typeName d = readTreeElem typeName d' := by
  unfold readTreeElem
  cases d with
  | text s => cases h; rfl
  | elem t as ds =>
    cases d' with
    | text s => cases h
    | elem t' as' ds' =>
      obtain ⟨rfl, rfl⟩ := alike_tag h
      simp only
      cases hm : readerOf typeName t with
      | none => rfl
      | some m =>
        have hu : usable m t = true := by
          cases typeName with
          | none => exact List.all_eq_true.1 switch_usable (t, m) (dictGet_mem' hm)
          | some n => exact atom_any (List.all_eq_true.1 types_usable (n, m) (dictGet_mem' hm))
        exact readWith_alike h hu

/-- C48 for `read_str_elem`: texts that are alike are read as the same object, or raise the same
error. -/
theorem C48_elements (typeName : Option String) (text text' : List Char) (d d' : Dom)
    (hp : parseElement text = some d) (hp' : parseElement text' = some d') (h : Alike d d') :
    readStrElem typeName text = readStrElem typeName text' := by
  unfold readStrElem
  rw [hp, hp']
  exact C48_element_trees typeName d d' h

/-- C48 for `read_str` and `read_file`, whatever XML parser is used: if the elements it makes of two
files are alike, they are read as the same document, or raise the same error, with and without
stop_on_error. -/
theorem C48_document_trees (stop : Bool) (version : Nat) (as as' : Attrs) (ds ds' : List Dom)
    (h : Alike (.elem "AUTOSAR" as ds) (.elem "AUTOSAR" as' ds')) :
    readTree stop version (.elem "AUTOSAR" as ds) =
      readTree stop version (.elem "AUTOSAR" as' ds') := readTree_alike h

/-- C48 for `read_str` and `read_file`: files that are alike are read as the same document, or raise
the same error, with and without stop_on_error. -/
theorem C48_documents (stop : Bool) (version : Nat) (text text' : List Char) (as as' : Attrs)
    (ds ds' : List Dom) (hp : parseDocument text = some (.elem "AUTOSAR" as ds))
    (hp' : parseDocument text' = some (.elem "AUTOSAR" as' ds'))
    (h : Alike (.elem "AUTOSAR" as ds) (.elem "AUTOSAR" as' ds')) :
    readDoc stop version text = readDoc stop version text' := by
  unfold readDoc
  rw [hp, hp']
  exact readTree_alike h

/-! ### Some files that are alike -/

theorem first_append (t : String) (as bs : List Dom) :
    firstElem t (as ++ bs) = (firstElem t as).or (firstElem t bs) := by
  induction as with
  | nil => rfl
  | cons a as ih =>
    rw [List.cons_append, firstElem, firstElem, ih]
    split <;> rfl

theorem record_same {t : String} {as : Attrs} {ds ds' : List Dom} (ht : t ∈ recordTags)
    (h : ∀ tag, LookedFor tag → firstElem tag ds = firstElem tag ds') :
    Alike (.elem t as ds) (.elem t as ds') := by
  refine .record ht (fun tag hl => by rw [h tag hl]) ?_
  intro tag d d' hl hd hd'
  rw [h tag hl, hd'] at hd
  cases hd
  exact .refl _

/-- Two parts with different tags may change places. -/
theorem C48_swap (t : String) (as : Attrs) (pre post between : List Dom) (u v : String)
    (au av : Attrs) (du dv : List Dom) (ht : t ∈ recordTags) (huv : u ≠ v)
    (hb : ∀ d ∈ between, hasTag u d = false ∧ hasTag v d = false) :
    Alike (.elem t as (pre ++ .elem u au du :: between ++ .elem v av dv :: post))
      (.elem t as (pre ++ .elem v av dv :: between ++ .elem u au du :: post)) := by
  apply record_same ht
  intro tag _
  have hbet : tag = u ∨ tag = v → firstElem tag between = none := by
    intro htag
    induction between with
    | nil => rfl
    | cons d ds ih =>
      have := hb d (by simp)
      rw [firstElem, ih fun d hd => hb d (by simp [hd])]
      rcases htag with rfl | rfl
      · simp [this.1]
      · simp [this.2]
  simp only [first_append, firstElem, hasTag, List.append_assoc, List.cons_append]
  by_cases h1 : u = tag
  · subst h1
    simp [hbet, huv, Ne.symm huv]
  · by_cases h2 : v = tag
    · subst h2
      simp [hbet, huv, Ne.symm huv]
    · simp [h1, h2]

/-- An element that no method looks for may be put anywhere among the parts. -/
theorem C48_unknown (t : String) (as : Attrs) (pre post : List Dom) (u : String) (au : Attrs)
    (du : List Dom) (ht : t ∈ recordTags) (hu : ¬ LookedFor u) :
    Alike (.elem t as (pre ++ post)) (.elem t as (pre ++ .elem u au du :: post)) := by
  apply record_same ht
  intro tag hl
  simp only [first_append, firstElem, hasTag]
  have : u ≠ tag := fun h => hu (h ▸ hl)
  simp [this]

/-- Further parts with the tag of one before them may be put anywhere after it. -/
theorem C48_repeated (t : String) (as : Attrs) (pre between post : List Dom) (u : String)
    (au av : Attrs) (du dv : List Dom) (ht : t ∈ recordTags) :
    Alike (.elem t as (pre ++ .elem u au du :: between ++ post))
      (.elem t as (pre ++ .elem u au du :: between ++ .elem u av dv :: post)) := by
  apply record_same ht
  intro tag _
  simp only [first_append, firstElem, hasTag, List.append_assoc, List.cons_append]
  by_cases h : u = tag
  · simp [h]
  · simp [h]

/-- White space among the parts of an element and the elements of a list makes no difference. -/
theorem C48_white_space (t : String) (as : Attrs) (pre post : List Dom) (s : String)
    (ht : t ∈ recordTags ∨ t ∈ listTags) :
    Alike (.elem t as (pre ++ post)) (.elem t as (pre ++ .text s :: post)) := by
  rcases ht with ht | ht
  · apply record_same ht
    intro tag _
    simp [first_append, firstElem, hasTag]
  · have : elemsOf (pre ++ .text s :: post) = elemsOf (pre ++ post) := by
      induction pre with
      | nil => rfl
      | cons d pre ih => cases d <;> simp [elemsOf, ih]
    refine .list ht (by rw [this]) ?_
    intro i d d' h h'
    rw [this, h] at h'
    cases h'
    exact .refl _

mutual
def sameDom : Dom → Dom → Bool
  | .text s, .text s' => s = s'
  | .elem t as ds, .elem t' as' ds' => t = t' && as = as' && sameDoms ds ds'
  | _, _ => false
def sameDoms : List Dom → List Dom → Bool
  | [], [] => true
  | d :: ds, d' :: ds' => sameDom d d' && sameDoms ds ds'
  | _, _ => false
end

mutual
theorem sameDom_eq : ∀ d d' : Dom, sameDom d d' = true → d = d'
  | .text s, .text s', h => by simp only [sameDom, decide_eq_true_eq] at h; rw [h]
  | .elem t as ds, .elem t' as' ds', h => by
    simp only [sameDom, Bool.and_eq_true, decide_eq_true_eq] at h
    rw [h.1.1, h.1.2, sameDoms_eq ds ds' h.2]
  | .text _, .elem _ _ _, h => by simp [sameDom] at h
  | .elem _ _ _, .text _, h => by simp [sameDom] at h
theorem sameDoms_eq : ∀ ds ds' : List Dom, sameDoms ds ds' = true → ds = ds'
  | [], [], _ => rfl
  | d :: ds, d' :: ds', h => by
    simp only [sameDoms, Bool.and_eq_true] at h
    rw [sameDom_eq d d' h.1, sameDoms_eq ds ds' h.2]
  | [], _ :: _, h => by simp [sameDoms] at h
  | _ :: _, [], h => by simp [sameDoms] at h
end

def isDom (r : Option Dom) (d : Dom) : Bool :=
  match r with
  | some d' => sameDom d' d
  | none => false

theorem isDom_eq {r : Option Dom} {d : Dom} (h : isDom r d = true) : r = some d := by
  cases r with
  | none => simp [isDom] at h
  | some d' => rw [sameDom_eq d' d h]

/-! ### A unit, with its parts in another order and an element of somebody else -/

def unit1 : List Char :=
  "<UNIT><SHORT-NAME>Percent</SHORT-NAME><FACTOR-SI-TO-UNIT>0.5</FACTOR-SI-TO-UNIT></UNIT>".toList

def unit2 : List Char :=
  "<UNIT>
  <FACTOR-SI-TO-UNIT>0.5</FACTOR-SI-TO-UNIT><VENDOR-DATA>x</VENDOR-DATA>
  <SHORT-NAME>Percent</SHORT-NAME><SHORT-NAME>Second</SHORT-NAME></UNIT>".toList

/-- The tags asked for by the methods on elements with some tag. -/
def asks (u : String) : RMethod Cls RM → Bool
  | .node _ items => items.any fun i => decide (u ∈ askedBy i)
  | _ => false

theorem asks_vendor : ∀ n < 202, asks "VENDOR-DATA" (rm (RM.ofNat n) "") = false := by
  decide +kernel

theorem vendor_unknown : ¬ LookedFor "VENDOR-DATA" := by
  rintro (h | h | ⟨m, t, c, items, hm, i, hi, hu⟩)
  · exact absurd h (by decide)
  · exact absurd h (by decide)
  · have h : asks "VENDOR-DATA" (rm m t) = true := by
      rw [hm]
      exact List.any_eq_true.2 ⟨i, hi, by simpa using hu⟩
    by_cases hb : byTag m = true
    · cases m <;> simp only [byTag, Bool.false_eq_true] at hb
      · change asks _ (Reader.multi_language_long_name t) = true at h
        unfold Reader.multi_language_long_name at h
        split at h <;> exact absurd h (by decide +kernel)
      · change asks _ (Reader.multi_language_overview_paragraph t) = true at h
        unfold Reader.multi_language_overview_paragraph at h
        split at h <;> exact absurd h (by decide +kernel)
      · change asks _ (Reader.port_in_composition_type_instance_ref t) = true at h
        unfold Reader.port_in_composition_type_instance_ref at h
        split at h <;> exact absurd h (by decide +kernel)
    · rw [rm_fixed (by simpa using hb) t ""] at h
      have hlt : m.ctorIdx < 202 := by cases m <;> decide
      have := asks_vendor _ hlt
      rw [RM.ofNat_ctorIdx, h] at this
      cases this

def unitDom1 : Dom :=
  .elem "UNIT" [] [.elem "SHORT-NAME" [] [.text "Percent"],
    .elem "FACTOR-SI-TO-UNIT" [] [.text "0.5"]]

def unitDom2 : Dom :=
  .elem "UNIT" [] [.text "\n  ", .elem "FACTOR-SI-TO-UNIT" [] [.text "0.5"],
    .elem "VENDOR-DATA" [] [.text "x"], .text "\n  ", .elem "SHORT-NAME" [] [.text "Percent"],
    .elem "SHORT-NAME" [] [.text "Second"]]

theorem unit1_parse : parseElement unit1 = some unitDom1 := isDom_eq (by decide +kernel)

theorem unit2_parse : parseElement unit2 = some unitDom2 := isDom_eq (by decide +kernel)

theorem first_skip {t tag : String} (h : t ≠ tag) {as : Attrs} {ds rest : List Dom} :
    firstElem tag (.elem t as ds :: rest) = firstElem tag rest := by
  simp [firstElem, hasTag, h]

theorem first_here {t tag : String} (h : t = tag) {as : Attrs} {ds rest : List Dom} :
    firstElem tag (.elem t as ds :: rest) = some (.elem t as ds) := by
  simp [firstElem, hasTag, h]

theorem first_text {tag s : String} {rest : List Dom} :
    firstElem tag (.text s :: rest) = firstElem tag rest := by
  simp [firstElem, hasTag]

theorem units_alike : Alike unitDom1 unitDom2 := by
  unfold unitDom1 unitDom2
  apply record_same (by decide +kernel)
  intro tag hl
  have hv : "VENDOR-DATA" ≠ tag := by
    rintro rfl
    exact vendor_unknown hl
  by_cases h1 : "SHORT-NAME" = tag
  · subst h1
    rfl
  · rw [first_skip h1, first_text]
    by_cases h2 : "FACTOR-SI-TO-UNIT" = tag
    · rw [first_here h2, first_here h2]
    · rw [first_skip h2, first_skip h2, first_skip hv, first_text, first_skip h1, first_skip h1]

example : ∃ d d', parseElement unit1 = some d ∧ parseElement unit2 = some d' ∧ Alike d d' :=
  ⟨_, _, unit1_parse, unit2_parse, units_alike⟩

/-- Files with the packages' parts in another order. -/
def file1 : List Char :=
  "<?xml version=\"1.0\" encoding=\"utf-8\"?><AUTOSAR><AR-PACKAGES><AR-PACKAGE><SHORT-NAME>P</SHORT-NAME><ELEMENTS/></AR-PACKAGE></AR-PACKAGES></AUTOSAR>".toList

def file2 : List Char :=
  "<?xml version=\"1.0\" encoding=\"utf-8\"?><AUTOSAR>
 <AR-PACKAGES><AR-PACKAGE><ELEMENTS/><SHORT-NAME>P</SHORT-NAME></AR-PACKAGE></AR-PACKAGES></AUTOSAR>".toList

def kids1 : List Dom :=
  [.elem "AR-PACKAGES" [] [.elem "AR-PACKAGE" [] [.elem "SHORT-NAME" [] [.text "P"],
    .elem "ELEMENTS" [] []]]]

def kids2 : List Dom :=
  [.text "\n ", .elem "AR-PACKAGES" [] [.elem "AR-PACKAGE" [] [.elem "ELEMENTS" [] [],
    .elem "SHORT-NAME" [] [.text "P"]]]]

theorem file1_parse : parseDocument file1 = some (.elem "AUTOSAR" [] kids1) :=
  isDom_eq (by decide +kernel)

theorem file2_parse : parseDocument file2 = some (.elem "AUTOSAR" [] kids2) :=
  isDom_eq (by decide +kernel)

theorem files_alike : Alike (.elem "AUTOSAR" [] kids1) (.elem "AUTOSAR" [] kids2) := by
  refine .list (by decide +kernel) rfl ?_
  intro i d d' h h'
  match i, h, h' with
  | 0, h, h' =>
    cases h; cases h'
    refine .list (by decide +kernel) rfl ?_
    intro i d d' h h'
    match i, h, h' with
    | 0, h, h' =>
      cases h; cases h'
      exact C48_swap "AR-PACKAGE" [] [] [] [] "SHORT-NAME" "ELEMENTS" [] [] _ _ (by decide +kernel)
        (by decide) (by simp)
    | i + 1, h, _ => simp [elemsOf] at h
  | i + 1, h, _ => simp [elemsOf, kids1] at h

example : ∃ as as' ds ds', parseDocument file1 = some (.elem "AUTOSAR" as ds) ∧
    parseDocument file2 = some (.elem "AUTOSAR" as' ds') ∧
    Alike (.elem "AUTOSAR" as ds) (.elem "AUTOSAR" as' ds') :=
  ⟨_, _, _, _, file1_parse, file2_parse, files_alike⟩

end Verif.Props.CodecOrder
