import Verif.Codec.Map
import Verif.Props.CodecLoad
import Verif.Props.CodecTidy
/-
C54: what is read is what the file says.
-/
namespace Verif.Props.CodecMap
open Verif.Py Verif.Num Verif.Xml Verif.Xml.Spec Verif.Codec Verif.Codec.Spec Verif.Codec.Map
open Verif.Props.CodecReject Verif.Props.CodecTidy

/-- C54 (partial): whatever element the XML parser finds, and whichever way it is read: if it is read
at all, then each attribute of the object, and of all objects in it, is what stands in the place of
that attribute in the element (text, number, boolean, enumeration value, reference, object or list of
these, in order), attributes for which nothing stands there are not set, and there are no other
attributes.
(Missing: the attributes that are not read, `C54_counterexample`.) -/
theorem C54_says_partial (typeName : Option String) (d : Dom) (v : Val Cls)
    (h : readTreeElem typeName d = .ok v) : Says d v := by
  unfold readTreeElem at h
  split at h
  · split at h
    · exact readWith_says h
    · cases h
  · cases h

/-- C54 for `read_str_elem` on text. -/
theorem C54_text_partial (typeName : Option String) (text : List Char) (v : Val Cls)
    (h : readStrElem typeName text = .ok v) : ∃ d, parseElement text = some d ∧ Says d v := by
  unfold readStrElem at h
  split at h
  · rename_i d hd
    exact ⟨d, hd, C54_says_partial typeName d v h⟩
  · cases h

theorem class_of {m : RM} {t : String} {as : Attrs} {ds : List Dom} {v : Val Cls} {c : Cls}
    (hc : objClass m t = some c) (h : readWith tables m (.elem t as ds) = .ok v) :
    ∃ fs, v = .obj c fs := by
  unfold readWith at h
  rw [rden_elem] at h
  have := Reject.run_res h
  unfold objClass at hc
  split at hc
  · rename_i hm
    cases hc
    rw [hm] at this
    exact this
  · rename_i hm
    cases hc
    rw [hm] at this
    exact this
  · cases hc

theorem collectable_classes : (readerCollectable.all fun x =>
    (dictGet tagClasses x.1).isSome && decide (objClass x.2 x.1 = dictGet tagClasses x.1)) = true := by
  decide +kernel

theorem good_says {d : Dom} {v : Val Cls} (h : goodElement d = some v) :
    Says d v ∧ ∃ t as ds, d = .elem t as ds ∧ ∃ c fs, dictGet tagClasses t = some c ∧
      v = .obj c fs := by
  unfold goodElement at h
  split at h
  · rename_i w hw
    cases h
    cases d with
    | text s => simp [readAlone] at hw
    | elem t as ds =>
      simp only [readAlone] at hw
      split at hw
      · rename_i m hm
        have hr : readWith tables m (.elem t as ds) = .ok v := by
          injection hw
        have := List.all_eq_true.1 collectable_classes _ (dictGet_mem' hm)
        simp only [Bool.and_eq_true, decide_eq_true_eq] at this
        obtain ⟨c, hc⟩ := Option.isSome_iff_exists.1 this.1
        obtain ⟨fs, hfs⟩ := class_of (this.2.trans hc) hr
        exact ⟨readWith_says hr, t, as, ds, rfl, c, fs, hc, hfs⟩
      · cases hw
  · cases h

/-- The values in the order of the elements they come from; some elements may be left out. -/
inductive FromIn : List Dom → List (Val Cls) → Prop
  | nil : FromIn [] []
  | leave {d : Dom} {ds : List Dom} {vs : List (Val Cls)} : FromIn ds vs → FromIn (d :: ds) vs
  | take {t : String} {as : Attrs} {xs ds : List Dom} {c : Cls} {fs : List (String × Val Cls)}
      {vs : List (Val Cls)} : dictGet tagClasses t = some c → Says (.elem t as xs) (.obj c fs) →
      FromIn ds vs → FromIn (.elem t as xs :: ds) (.obj c fs :: vs)

theorem from_sub : ∀ (ds : List Dom) (vs : List (Val Cls)),
    vs.Sublist (ds.filterMap goodElement) → FromIn ds vs
  | [], vs, h => by
    cases h
    exact .nil
  | d :: ds, vs, h => by
    rw [List.filterMap_cons] at h
    split at h
    · exact .leave (from_sub ds vs h)
    · rename_i w hw
      cases h with
      | cons _ h => exact .leave (from_sub ds vs h)
      | cons_cons _ h =>
        obtain ⟨hs, t, as, xs, rfl, c, fs, hc, rfl⟩ := good_says hw
        exact .take hc hs (from_sub ds _ h)

theorem firsts_sub : ∀ vs : List (Val Cls), (firstOfEach vs).Sublist vs
  | [] => .slnil
  | v :: vs => by
    rw [firstOfEach]
    exact .cons_cons _ (List.filter_sublist.trans (firsts_sub vs))

/-- C54 for files: if a file is read, then the elements of each package in it are objects of the
classes their tags stand for, in the order of the file, and each says what its element in the file
says.  (Which elements are left out is the subject of C51.) -/
theorem C54_files_partial (stop : Bool) (version : Nat) (d : Dom) (doc : Document) (es : List Dom)
    (hr : readTree stop version d = .ok doc) (he : InFile es d) :
    ∃ p ∈ doc.packages, ∃ vs, HasElements vs p ∧ FromIn es vs ∧
      vs = firstOfEach (es.filterMap goodElement) := by
  obtain ⟨p, hp, h⟩ := C51_kept stop version d doc es hr he
  exact ⟨p, hp, _, h, from_sub _ _ (firsts_sub _), rfl⟩

/-- C54 for what is written: the text written for an object of any of the classes has, in the place
of each attribute that survives (C21, C23-C25, C42-C46), the value of that attribute. -/
theorem C54_written_partial (x : Cls × Option String × Option String) (hx : x ∈ CodecLoad.forms)
    (v : Val Cls) (hw : WellFormed x.1 v) :
    ∃ text d v', writeStrElem x.2.1 v = .ok text ∧ parseElement text = some d ∧ Says d v' ∧
      Same (remains v) v' ∧ (noWhole v = true → v' = remains v) := by
  have ht := List.all_eq_true.1 CodecLoad.forms_ok x hx
  obtain ⟨text, h1, h2⟩ := elem_rt ht hw
  obtain ⟨d, hd, hs⟩ := C54_text_partial _ _ _ h2
  exact ⟨text, d, _, h1, hd, hs, same_norm false _, norm_noWhole false _⟩

/-- C54 is false: the validity of scale constraints and the service kind of port interfaces are
never read, whatever the element says. -/
theorem C54_counterexample (m : RM) (d : Dom) (c : Cls) (a : String) (p : Place)
    (fs : List (String × Val Cls)) (hu : (c, a, p) ∈ unread)
    (h : readWith tables m d = .ok (.obj c fs)) : dictGet fs a = none := by
  have hall : (unread.all fun x => (parts x.1).all fun y => decide (y.1 ≠ x.2.1)) = true := by
    decide +kernel
  have h1 := List.all_eq_true.1 (List.all_eq_true.1 hall _ hu)
  cases hv : dictGet fs a with
  | none => rfl
  | some v =>
    exfalso
    have hs := readWith_says h
    cases hs with
    | text _ h => exact h.elim
    | obj _ h =>
      obtain ⟨q, hq⟩ := h a v (dictGet_mem' hv)
      have := h1 _ hq
      simp at this

/-! ### Examples -/

/-- The object and the attribute of it, as text. -/
def attrText (r : Except PyErr (Val Cls)) (a : String) : Option String :=
  match r with
  | .ok (.obj _ fs) =>
    match dictGet fs a with
    | some (.str s) => some s
    | _ => none
  | _ => none

def hasAttr (r : Except PyErr (Val Cls)) (a : String) : Option Bool :=
  match r with
  | .ok (.obj _ fs) => some (dictGet fs a).isSome
  | _ => none

/-- A scale constraint with a validity. -/
def scaleDom : Dom :=
  .elem "SCALE-CONSTR" [("VALIDITY", "NOT-VALID")]
    [.elem "SHORT-LABEL" [] [.text "low"],
     .elem "UPPER-LIMIT" [("INTERVAL-TYPE", "OPEN")] [.text "16"]]

example : attrText (readTreeElem none scaleDom) "label" = some "low" ∧
    hasAttr (readTreeElem none scaleDom) "upper_limit" = some true ∧
    hasAttr (readTreeElem none scaleDom) "validity" = some false := by decide +kernel

/-- In every way of reading this scale constraint its validity is lost. -/
example : ∃ fs, readTreeElem none scaleDom = .ok (.obj .ScaleConstraint fs) ∧
    dictGet fs "validity" = none := by
  have h : isOk (readTreeElem none scaleDom) = true := by decide +kernel
  have hm : readerOf none "SCALE-CONSTR" = some .scale_constraint := by decide +kernel
  cases hr : readTreeElem none scaleDom with
  | error e => rw [hr] at h; cases h
  | ok v =>
    have hr' := hr
    unfold scaleDom at hr'
    simp only [readTreeElem, hm] at hr'
    obtain ⟨fs, rfl⟩ := class_of (c := .ScaleConstraint) (by decide +kernel) hr'
    exact ⟨fs, rfl, C54_counterexample _ _ _ "validity" (.attribute "VALIDITY") _
      (by simp [unread]) hr'⟩

/-- The service kind of an interface. -/
def serviceDom : Dom :=
  .elem "SENDER-RECEIVER-INTERFACE" []
    [.elem "SHORT-NAME" [] [.text "I"], .elem "IS-SERVICE" [] [.text "true"],
     .elem "SERVICE-KIND" [] [.text "NV-RAM-MANAGER"]]

example : hasAttr (readTreeElem none serviceDom) "is_service" = some true ∧
    hasAttr (readTreeElem none serviceDom) "service_kind" = some false := by decide +kernel

/-- An initial value with something unknown in it is dropped silently (`except KeyError`). -/
def initDom (axis : String) : Dom :=
  .elem "VARIABLE-DATA-PROTOTYPE" []
    [.elem "SHORT-NAME" [] [.text "V"],
     .elem "INIT-VALUE" [] [.elem "APPLICATION-VALUE-SPECIFICATION" []
      [.elem "SW-AXIS-CONTS" [] [.elem "SW-AXIS-CONT" []
        [.elem "CATEGORY" [] [.text axis]]]]]]

example :
    hasAttr (readWith tables .variable_data_prototype (initDom "COM-AXIS")) "init_value" = some true ∧
    hasAttr (readWith tables .variable_data_prototype (initDom "OTHER")) "init_value" = some false := by
  decide +kernel

/-- An empty encoding is read as the text "None". -/
example : attrText (readTreeElem none (.elem "SW-BASE-TYPE" []
    [.elem "SHORT-NAME" [] [.text "V"], .elem "BASE-TYPE-ENCODING" [] []])) "encoding" =
    some "None" := by decide +kernel

/-- A unit in a file: the hypotheses of `C54_files_partial` hold, and what comes out is the unit of the
file with its name and factor. -/
example : isOk (readTree false 51 (file [goodUnit, unknown, nameless])) = true ∧
    InFile [goodUnit, unknown, nameless] (file [goodUnit, unknown, nameless]) :=
  ⟨by decide +kernel, file_holds _⟩

example (v : Val Cls) (h : readTreeElem none CodecOrder.unitDom2 = .ok v) : Says CodecOrder.unitDom2 v :=
  C54_says_partial none _ v h

example : isOk (readTreeElem none CodecOrder.unitDom2) = true ∧
    attrText (readTreeElem none CodecOrder.unitDom2) "name" = some "Percent" := by decide +kernel

/-- `Says` determines the attributes that are text: they are the text of the child with the tag. -/
theorem says_name {t : String} {as : Attrs} {ds : List Dom} {c : Cls} {fs : List (String × Val Cls)}
    {a tag : String} (hp : (a, Place.text tag) ∈ parts c) (h : Says (.elem t as ds) (.obj c fs)) :
    (dictGet fs a : Option (Val Cls)) =
      (firstElem tag ds).bind fun d => match d with
        | .elem _ _ xs => (leadText xs).map .str
        | .text _ => none := by
  cases h with
  | text _ h => exact h.elim
  | obj h _ =>
    have h := h a _ hp
    generalize dictGet fs a = x at h
    cases h with
    | text_none h => rw [h]; rfl
    | text h => rw [h]; rfl

example (fs : List (String × Val Cls))
    (h : Says (.elem "UNIT" [] [.elem "SHORT-NAME" [] [.text "A"]]) (.obj .Unit fs)) :
    dictGet fs "name" = some (.str "A") ∧ dictGet fs "display_name" = none := by
  constructor
  · rw [says_name (tag := "SHORT-NAME") (by decide +kernel) h]; rfl
  · cases h with
    | text _ h => exact h.elim
    | obj h _ =>
      have h := h "display_name" (.child "DISPLAY-NAME") (by decide +kernel)
      generalize dictGet fs "display_name" = x at h ⊢
      cases h with
      | child_none h => rfl
      | child h => cases h

end Verif.Props.CodecMap
