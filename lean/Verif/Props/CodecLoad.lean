import Verif.Codec.LoadDoc
import Verif.Props.CodecBehavior
import Verif.Props.CodecCompu
import Verif.Props.CodecDoc
import Verif.Props.CodecImpl
import Verif.Props.CodecInterface
import Verif.Props.CodecPackage
import Verif.Props.CodecPort
import Verif.Props.CodecSwc
import Verif.Props.CodecTypes
import Verif.Props.CodecValue
/-
C49: what was loaded from any file can be saved and loaded again, and from then on nothing changes
any more.
-/
namespace Verif.Props.CodecLoad
open Verif.Py Verif.Num Verif.Xml Verif.Xml.Spec Verif.Codec Verif.Codec.Spec Verif.Codec.Load

/-- C49: whatever element the XML parser finds: if it is read as an object in which nothing stands in
the way of writing, then all attributes of the object and of all objects in it have values of their
types, all references have destinations their classes accept, and so on. -/
theorem C49_well_formed (typeName : Option String) (d : Dom) (c : Cls)
    (fs : List (String × Val Cls)) (h : readTreeElem typeName d = .ok (.obj c fs))
    (hw : writable (.obj c fs) = true) : WellFormed c (.obj c fs) := by
  unfold readTreeElem at h
  split at h
  · split at h
    · exact wellFormed_of (read_fine h) hw
    · cases h
  · cases h

theorem text_wellFormed {typeName : Option String} {text : List Char} {c : Cls}
    {fs : List (String × Val Cls)} (h : readStrElem typeName text = .ok (.obj c fs))
    (hw : writable (.obj c fs) = true) : WellFormed c (.obj c fs) := by
  unfold readStrElem at h
  split at h
  · exact C49_well_formed typeName _ c fs h hw
  · cases h

/-- The classes, with the arguments for writing and reading, that C21, C23-C25 and C42-C46 are
about. -/
def forms : List (Cls × Option String × Option String) :=
  CodecBehavior.forms ++ CodecCompu.forms ++ CodecDoc.forms ++ CodecImpl.forms ++
  CodecInterface.forms ++ CodecPort.forms ++ CodecSwc.forms ++ CodecTypes.forms ++
  (CodecValue.valueClasses ++ [Cls.ConstantSpecification, .SwValueCont, .SwAxisCont]).map
    fun c => (c, none, none)

theorem forms_ok : (forms.all fun x => topOk x.1 x.2.1 x.2.2) = true := by decide +kernel

/-- C49 for `read_str_elem`: an object loaded from any element in which nothing stands in the way of
writing can be saved, and what is loaded then is the same, except for what does not survive (C21,
C23-C25, C42-C46); and that can be saved too, and is loaded as exactly the same object. -/
theorem C49_elements (typeName : Option String) (d : Dom)
    (x : Cls × Option String × Option String) (hx : x ∈ forms) (fs : List (String × Val Cls))
    (h : readTreeElem typeName d = .ok (.obj x.1 fs)) (hw : writable (.obj x.1 fs) = true) :
    ∃ text' v', writeStrElem x.2.1 (.obj x.1 fs) = .ok text' ∧
      readStrElem x.2.2 text' = .ok v' ∧ Same (remains (.obj x.1 fs)) v' ∧
      (noWhole (.obj x.1 fs) = true → v' = remains (.obj x.1 fs)) ∧
      ∃ text'', writeStrElem x.2.1 v' = .ok text'' ∧ readStrElem x.2.2 text'' = .ok v' := by
  have ht := List.all_eq_true.1 forms_ok x hx
  obtain ⟨text', h1, h2⟩ := elem_rt ht (C49_well_formed typeName d x.1 fs h hw)
  refine ⟨text', _, h1, h2, same_norm false _, norm_noWhole false _, ?_⟩
  have hw' := writable_norm false _ hw
  have hn := norm_norm false (.obj x.1 fs)
  simp only [normVal] at h2 hw' hn
  obtain ⟨text'', h3, h4⟩ := elem_rt ht (text_wellFormed h2 hw')
  simp only [normVal] at h4 ⊢
  rw [hn] at h4
  exact ⟨text'', h3, h4⟩

/-- C49: whatever the XML parser makes of a file: if it is read (with or without stop_on_error) as a document in which
nothing stands in the way of writing, the document is well formed. -/
theorem C49_documents_well_formed (stop : Bool) (version : Nat) (d : Dom) (doc : Document)
    (h : readTree stop version d = .ok doc) (hv : 50 ≤ doc.schemaVersion)
    (hw : writablePkgs doc.packages = true) : WellFormedDoc doc := doc_good h hv hw

/-- C49 for documents: a document loaded from any file in which nothing stands in the way of writing
can be saved, and what is loaded then has the same packages and elements in the same order, with the
same contents except for what does not survive. -/
theorem C49_documents (stop : Bool) (version : Nat) (d : Dom) (doc : Document)
    (h : readTree stop version d = .ok doc) (hv : 50 ≤ doc.schemaVersion)
    (hw : writablePkgs doc.packages = true) (skip stop' : Bool) (version' : Nat) :
    ∃ text' doc', writeDoc skip doc = .ok text' ∧ readDoc stop' version' text' = .ok doc' ∧
      outlines doc'.packages = outlines doc.packages ∧
      SamePkgs (remainsPkgs doc.packages) doc'.packages ∧
      (noWholePkgs doc.packages = true → doc'.packages = remainsPkgs doc.packages) ∧
      (skip = false → doc'.schemaVersion = doc.schemaVersion) := by
  obtain ⟨text', h1, h2⟩ := doc_norm skip stop' version' (doc_good h hv hw)
  refine ⟨text', _, h1, h2, outlines_norm _, same_pkgs _, whole_pkgs _, ?_⟩
  rintro rfl
  rfl

/-- C49: and from then on nothing changes any more: a document loaded from a file saved by this
library, the document in it having been loaded from any file, can be saved again, and loading that
file gives exactly the same packages, and with the attributes of the root element exactly the same
document; all further files are the same, character by character. -/
theorem C49_stable (stop : Bool) (version : Nat) (d : Dom) (doc : Document)
    (h : readTree stop version d = .ok doc) (hv : 50 ≤ doc.schemaVersion)
    (hw : writablePkgs doc.packages = true) (skip stop' : Bool) (version' : Nat)
    (text' : List Char) (doc' : Document) (hs : writeDoc skip doc = .ok text')
    (hl : readDoc stop' version' text' = .ok doc') (hv' : 50 ≤ doc'.schemaVersion)
    (skip2 stop2 : Bool) (version2 : Nat) :
    ∃ text2 doc2, writeDoc skip2 doc' = .ok text2 ∧ readDoc stop2 version2 text2 = .ok doc2 ∧
      doc2.packages = doc'.packages ∧
      (skip2 = false → doc2 = doc' ∧ writeDoc skip2 doc2 = .ok text2) := by
  obtain ⟨t, h1, h2⟩ := doc_norm skip stop' version' (doc_good h hv hw)
  rw [hs] at h1
  cases h1
  rw [hl] at h2
  cases h2
  have hw' := writable_normPkgs _ hw
  obtain ⟨text2, h3, h4⟩ := doc_norm skip2 stop2 version2 (text_good hl hv' hw')
  refine ⟨text2, _, h3, h4, norm_normPkgs _, ?_⟩
  rintro rfl
  have : (⟨if false then version2 else (if skip then version' else doc.schemaVersion),
      normPkgs (normPkgs doc.packages)⟩ : Document) =
      ⟨if skip then version' else doc.schemaVersion, normPkgs doc.packages⟩ := by
    rw [norm_normPkgs]
    rfl
  refine ⟨this, ?_⟩
  rw [this]
  exact h3

/-! ### Files of somebody else -/

/-- The result of reading, if it is one that can be written. -/
def readable (r : Except PyErr (Val Cls)) (c : Cls) : Bool :=
  match r with
  | .ok (.obj c' fs) => c' = c && writable (.obj c' fs)
  | _ => false

/-- A unit with an unknown part, a number in another notation and a name that is set in two ways. -/
def unitTree : Dom :=
  .elem "UNIT" [("UUID", "7")] [.elem "VENDOR" [] [.text "x"],
    .elem "FACTOR-SI-TO-UNIT" [] [.text " +1.50e1 "], .text "\n",
    .elem "SHORT-NAME" [] [.text "Rpm"], .elem "LONG-NAME" [] [.elem "L-4" [("L", "EN")]
      [.text "a", .elem "TT" [("TYPE", "VARIABLE")] [.text "b"]]]]

theorem readable_unit : readable (readTreeElem none unitTree) .Unit = true := by decide +kernel

example : ∃ fs, readTreeElem none unitTree = .ok (.obj .Unit fs) ∧
    writable (.obj .Unit fs) = true ∧ (.Unit, none, none) ∈ forms := by
  have h := readable_unit
  unfold readable at h
  split at h
  · rename_i c fs hr
    simp only [Bool.and_eq_true, decide_eq_true_eq] at h
    obtain ⟨rfl, h⟩ := h
    exact ⟨fs, hr, h, by decide +kernel⟩
  · cases h

/-- A file with an unknown element and a repeated one. -/
def file : Dom :=
  .elem "AUTOSAR" [("{x}schemaLocation", "a AUTOSAR_00051.xsd")] [.elem "AR-PACKAGES" []
    [.elem "AR-PACKAGE" [] [.elem "ELEMENTS" [] [.elem "OTHER" [] [], unitTree, unitTree],
      .elem "SHORT-NAME" [] [.text "P"]]]]

def storable (r : Except PyErr Document) : Bool :=
  match r with
  | .ok doc => decide (50 ≤ doc.schemaVersion) && writablePkgs doc.packages &&
      decide (doc.packages.map (·.elements.length) = [1])
  | _ => false

theorem storable_file : storable (readTree false 1 file) = true := by decide +kernel

example : ∃ doc, readTree false 1 file = .ok doc ∧ 50 ≤ doc.schemaVersion ∧
    writablePkgs doc.packages = true ∧ doc.packages.map (·.elements.length) = [1] := by
  have h := storable_file
  unfold storable at h
  split at h
  · rename_i doc hr
    simp only [Bool.and_eq_true, decide_eq_true_eq] at h
    exact ⟨doc, hr, h.1.1, h.1.2, h.2⟩
  · cases h

/-! ### What cannot be saved -/

def amp : List Char :=
  "<UNIT><SHORT-NAME>u</SHORT-NAME><CATEGORY>R&amp;D</CATEGORY></UNIT>".toList

def lostOnSaving (text : List Char) : Bool :=
  match readStrElem none text with
  | .ok v =>
    match writeStrElem none v with
    | .ok text' =>
      match readStrElem none text' with
      | .error e => decide (e = .parseError)
      | .ok _ => false
    | .error _ => false
  | .error _ => false

/-- Finding for C49: without the condition on strings it is false.  An element with a `&amp;` is
loaded and saved without complaint, but the result cannot be loaded any more. -/
theorem C49_counterexample : ∃ text v text', readStrElem none text = .ok v ∧
    writeStrElem none v = .ok text' ∧ readStrElem none text' = .error .parseError := by
  have h : lostOnSaving amp = true := by decide +kernel
  unfold lostOnSaving at h
  split at h
  · rename_i v hv
    split at h
    · rename_i text' ht
      split at h
      · rename_i e he
        simp only [decide_eq_true_eq] at h
        subst h
        exact ⟨amp, v, text', hv, ht, he⟩
      · cases h
    · cases h
  · cases h

end Verif.Props.CodecLoad
