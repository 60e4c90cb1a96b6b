import Verif.Codec.OlderProof
import Verif.Props.CodecBehavior
import Verif.Props.CodecOrder
/-
C63: every schema version.
-/
namespace Verif.Props.CodecOlder
open Verif.Py Verif.Num Verif.Xml Verif.Xml.Spec Verif.Codec Verif.Codec.Spec
open Verif.Codec.Older.Spec

/-- C63: components, behaviors, runnables, events and access points survive in every schema version,
if writer and reader have the same one.  Before version 50 this needs every exclusive area a runnable
refers to to be named. -/
theorem C63_elements (n : Nat) : ∀ x ∈ CodecBehavior.forms, ∀ v, WellFormed x.1 v →
    (n < 50 → areasNamed v = true) → SurvivesIn n x.2.1 x.2.2 v := by
  intro x hx v hv ha
  have ht : ∀ x ∈ CodecBehavior.forms, topOk x.1 x.2.1 x.2.2 = true := by decide +kernel
  obtain ⟨text, h1, h2⟩ := Older.elem_rt n (ht x hx) hv ha
  exact ⟨text, _, h1, h2, same_norm false v, norm_noWhole false v⟩

example : WellFormed .ApplicationSoftwareComponentType CodecBehavior.sample ∧
    areasNamed CodecBehavior.sample = true := by decide +kernel

/-- C63: so do documents with any packages.  A document written without the attributes of the root
element has to be read by a reader on the same side of version 50; otherwise the version in the text
counts. -/
theorem C63_documents (skip stop : Bool) (version : Nat) (doc : Document)
    (h : WellFormedPkgs doc.packages) (hn : (doc.packages.map Pkg.name).Nodup)
    (ha : doc.schemaVersion < 50 → areasNamedPkgs doc.packages = true)
    (hv : skip = true → SameSide version doc.schemaVersion) :
    ∃ text doc', Older.writeDoc skip doc = .ok text ∧ Older.readDoc stop version text = .ok doc' ∧
      (doc'.schemaVersion = if skip then version else doc.schemaVersion) ∧
      outlines doc'.packages = outlines doc.packages ∧
      SamePkgs (remainsPkgs doc.packages) doc'.packages ∧
      (noWholePkgs doc.packages = true → doc'.packages = remainsPkgs doc.packages) := by
  obtain ⟨text, h1, h2⟩ := Older.doc_rt skip stop version doc h hn ha hv
  exact ⟨text, _, h1, h2, rfl, outlines_norm _, same_pkgs _, whole_pkgs _⟩

/-- A document of version 48 with a component that has a runnable with an exclusive area. -/
def sample : Document where
  schemaVersion := 48
  packages := [.mk [("name", .str "S")] [CodecBehavior.sample] [.mk [("name", .str "Sub")] [] []]]

example : WellFormedPkgs sample.packages ∧ (sample.packages.map Pkg.name).Nodup ∧
    areasNamedPkgs sample.packages = true ∧ SameSide 49 sample.schemaVersion := by
  refine ⟨⟨⟨by decide +kernel, ?_, by decide +kernel, ⟨by decide +kernel, by simp,
    by decide +kernel, trivial⟩, trivial⟩, trivial⟩, by decide +kernel, by decide +kernel,
    by simp [SameSide, sample]⟩
  simp only [List.mem_singleton]
  rintro v rfl
  exact ⟨.ApplicationSoftwareComponentType, by decide +kernel, by decide +kernel⟩

/-- C63: from version 50 on nothing depends on the version: objects and documents are written and
read as the claims before say. -/
theorem C63_newer :
    (∀ n, 50 ≤ n → ∀ tag v, Older.writeStrElem n tag v = writeStrElem tag v) ∧
    (∀ n, 50 ≤ n → ∀ ty text, Older.readStrElem n ty text = readStrElem ty text) ∧
    (∀ skip doc, 50 ≤ doc.schemaVersion → Older.writeDoc skip doc = writeDoc skip doc) ∧
    (∀ stop version tag attrs kids, 50 ≤ readVersion version attrs →
      Older.readTree stop version (.elem tag attrs kids) =
        readTree stop version (.elem tag attrs kids)) :=
  ⟨fun _ h => Older.writeStrElem_newer h, fun _ h => Older.readStrElem_newer h,
   fun skip _ h => Older.writeDoc_newer skip h, Older.readTree_newer⟩

/-- The attributes of the runnable after the references were taken. -/
theorem lowerFields_get (c : Cls) (fs : List (String × Val Cls)) (k : String) :
    dictGet (Older.lowerFields c fs) k =
      (dictGet fs k).map fun v => if Older.isAreas c k then Older.areaRefs v else Older.lower v := by
  induction fs with
  | nil => rfl
  | cons p fs ih =>
    obtain ⟨k', v⟩ := p
    simp only [Older.lowerFields, dictGet]
    by_cases hk : k' = k
    · subst hk; simp
    · simp [hk, ih]

/-- C63: before version 50 a runnable with an exclusive area that is not named is refused. -/
theorem C63_refused (n : Nat) (hn : n < 50) (fs : List (String × Val Cls)) (k : String)
    (hk : k = "can_enter_leave" ∨ k = "runs_insides") (vs : List (Val Cls))
    (hf : dictGet fs k = some (.list vs)) (as : List (String × Val Cls))
    (hm : .obj .ExclusiveAreaRefConditional as ∈ vs) (ha : dictGet as "exclusive_area" = none) :
    ∃ e, Older.writeStrElem n none (.obj .RunnableEntity fs) = .error e := by
  have hi : ∃ t tag, Writer.list k t (.meth .exclusive_area_ref (some tag)) ∈
      Older.executableEntityW := by
    rcases hk with rfl | rfl
    · exact ⟨_, _, .tail _ (.head _)⟩
    · exact ⟨_, _, .tail _ (.tail _ (.tail _ (.tail _ (.tail _ (.head _)))))⟩
  obtain ⟨t, tag, hi⟩ := hi
  have hr : Older.isAreas .RunnableEntity k = true := by
    rcases hk with rfl | rfl <;> decide
  have hd : dictGet (wdenFields Older.older (Older.lowerFields .RunnableEntity fs)) k =
      some (wden Older.older (.list (vs.map Older.areaRef))) := by
    rw [wdenFields_get, lowerFields_get, hf]
    simp [hr, Older.areaRefs]
  have hu : Older.areaRef (.obj .ExclusiveAreaRefConditional as) =
      .obj .ExclusiveAreaRefConditional as := by
    simp [Older.areaRef, ha]
  have he : ∃ e, writeItem Older.older
      (wdenFields Older.older (Older.lowerFields .RunnableEntity fs))
      (Writer.list k t (.meth .exclusive_area_ref (some tag))) = .error e := by
    simp only [Writer.list, writeItem, hd]
    have hg : Guard.truthy.holds (wden Older.older (.list (vs.map Older.areaRef))).val = true := by
      simp [wden, WDen.val, Guard.holds, truthy]
      cases vs with
      | nil => cases hm
      | cons => simp
    simp only [hg, if_true]
    have hc : ∃ e, collect ((vs.map fun v => wden Older.older (Older.areaRef v)).map
        (writeCall Older.older [(.any, .meth .exclusive_area_ref (some tag))] none)) = .error e := by
      refine collect_error (e := .assertionError)
        (x := wden Older.older (Older.areaRef (.obj .ExclusiveAreaRefConditional as)))
        (List.mem_map.2 ⟨_, hm, rfl⟩) ?_
      rw [hu]
      rfl
    obtain ⟨e, hc⟩ := hc
    refine ⟨e, ?_⟩
    have : (wden Older.older (.list (vs.map Older.areaRef))).elems =
        vs.map fun v => wden Older.older (Older.areaRef v) := by
      simp [wden, WDen.elems, wdenList_map]
    rw [this, hc]
    rfl
  obtain ⟨e, he⟩ := he
  have hi' : Writer.list k t (.meth .exclusive_area_ref (some tag)) ∈
      Writer.referrable ++ Writer.multilanguage_referrable ++ Writer.identifiable ++
        Older.executableEntityW ++ Writer.runnable_entity_group :=
    List.mem_append_left _ (List.mem_append_right _ hi)
  obtain ⟨e', hc⟩ := collect_error hi' he
  have hw : ∃ e, writeWith Older.older .runnable_entity none
      (.obj .RunnableEntity (Older.lowerFields .RunnableEntity fs)) = .error e := by
    show ∃ e, runWriter Older.older .runnable_entity none
      (.obj .RunnableEntity (Older.lowerFields .RunnableEntity fs))
      (wdenFields Older.older (Older.lowerFields .RunnableEntity fs)) = .error e
    unfold runWriter
    rw [show Older.older.wm .runnable_entity none = Older.runnableEntityW from rfl]
    unfold Older.runnableEntityW
    simp only [hc, Bool.false_and, Bool.false_eq_true, if_false]
    repeat' split
    all_goals exact ⟨_, rfl⟩
  obtain ⟨e'', hw⟩ := hw
  unfold Older.writeStrElem Older.tablesFor Older.lowerFor
  rw [if_pos hn, if_pos hn,
    show writerOf (.obj .RunnableEntity fs) = some .runnable_entity from rfl]
  simp only [Older.lower, hw]
  split
  · exact ⟨_, rfl⟩
  · exact ⟨_, rfl⟩

/-- Such a runnable; from version 50 on it survives. -/
example : ∃ fs vs as, dictGet fs "runs_insides" = some (.list vs) ∧
    .obj .ExclusiveAreaRefConditional as ∈ vs ∧ dictGet as "exclusive_area" = none ∧
    WellFormed .RunnableEntity (.obj .RunnableEntity fs) :=
  ⟨[("name", .str "Run"), ("runs_insides", .list [.obj .ExclusiveAreaRefConditional []])], _, [],
    rfl, .head _, rfl, by decide +kernel⟩

/-! ### Written in one version, read in another -/

def runnable : Val Cls :=
  .obj .RunnableEntity [("name", .str "Run"),
    ("can_enter_leave", .list [.obj .ExclusiveAreaRefConditional
      [("exclusive_area", .ref ⟨"ExclusiveAreaRef", "/S/B/Area", "EXCLUSIVE_AREA"⟩)]])]

example : WellFormed .RunnableEntity runnable ∧ areasNamed runnable = true := by decide +kernel

/-- What a writer for version 49 writes. -/
def text49 : List Char :=
  "<RUNNABLE-ENTITY>
  <SHORT-NAME>Run</SHORT-NAME>
  <CAN-ENTER-EXCLUSIVE-AREA-REFS>
    <CAN-ENTER-EXCLUSIVE-AREA-REF DEST=\"EXCLUSIVE-AREA\">/S/B/Area</CAN-ENTER-EXCLUSIVE-AREA-REF>
  </CAN-ENTER-EXCLUSIVE-AREA-REFS>
</RUNNABLE-ENTITY>".toList

def dom49 : Dom :=
  .elem "RUNNABLE-ENTITY" []
    [.text "\n  ", .elem "SHORT-NAME" [] [.text "Run"], .text "\n  ",
     .elem "CAN-ENTER-EXCLUSIVE-AREA-REFS" []
       [.text "\n    ",
        .elem "CAN-ENTER-EXCLUSIVE-AREA-REF" [("DEST", "EXCLUSIVE-AREA")] [.text "/S/B/Area"],
        .text "\n  "], .text "\n"]

theorem parse49 : parseElement text49 = some dom49 := CodecOrder.isDom_eq (by decide +kernel)

def isText (r : Except PyErr (List Char)) (t : List Char) : Bool :=
  match r with
  | .ok t' => t' == t
  | .error _ => false

theorem isText_eq {r : Except PyErr (List Char)} {t : List Char} (h : isText r t = true) :
    r = .ok t := by
  cases r with
  | error e => simp [isText] at h
  | ok t' => simp [isText] at h; rw [h]

/-- C63: the exclusive areas of what was written in version 49 are lost without an error if the
reader's version is 51, its default (reader.py 117-127). -/
theorem C63_crossed :
    ∃ text, Older.writeStrElem 49 none runnable = .ok text ∧
      Older.readStrElem 49 none text = .ok runnable ∧
      Older.readStrElem 51 none text = .ok (.obj .RunnableEntity [("name", .str "Run")]) := by
  refine ⟨text49, ?_, ?_, ?_⟩
  · exact isText_eq (by decide +kernel)
  · unfold Older.readStrElem; rw [parse49]; with_unfolding_all rfl
  · unfold Older.readStrElem; rw [parse49]; with_unfolding_all rfl

end Verif.Props.CodecOlder
