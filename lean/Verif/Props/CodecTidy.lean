import Verif.Codec.Tidy
import Verif.Props.CodecReject
/-
C51: an element that cannot be read spoils only itself.
-/
namespace Verif.Props.CodecTidy
open Verif.Py Verif.Num Verif.Xml Verif.Xml.Spec Verif.Codec Verif.Codec.Spec Verif.Codec.Tidy
open Verif.Props.CodecReject

/-- C51 (partial): without stop_on_error a file is read exactly as if the elements of unknown kinds
and those for which ParseError is raised were not in it.  (Missing: elements for which other
exceptions are raised, `C51_counterexample`.) -/
theorem C51_left_out_partial (version : Nat) (d : Dom) :
    readTree false version d = readTree false version (tidy d) :=
  (readTree_tidy version d).symm

/-- C51: if a file is read, then the elements of each of its packages are those that can be read by
themselves, in order (of several with the same name the first). -/
theorem C51_kept (stop : Bool) (version : Nat) (d : Dom) (doc : Document) (es : List Dom)
    (hr : readTree stop version d = .ok doc) (he : InFile es d) :
    ∃ p ∈ doc.packages, HasElements (firstOfEach (es.filterMap goodElement)) p :=
  file_kept he hr

/-- C51 is false for other exceptions: one element for which TypeError, ValueError, KeyError or the
like is raised keeps the whole file from being read, with and without stop_on_error. -/
theorem C51_counterexample (stop : Bool) (version : Nat) (d x : Dom) (es : List Dom) (e : PyErr)
    (he : InFile es d) (hx : x ∈ es) (hr : readAlone x = some (.error e))
    (hs : stop = true ∨ (e ≠ .parseError ∧ e ≠ .duplicateElement)) :
    ∃ e', readTree stop version d = .error e' := by
  refine file_fatal ⟨e, hr, ?_⟩ hx he
  rcases hs with hs | ⟨h1, h2⟩
  · exact .inl hs
  · exact .inr (by simp [reported, h1, h2])

/-- C51: in particular a file with one element that has an introduction (C50). -/
theorem C51_introduction (stop : Bool) (version : Nat) (d : Dom) (es : List Dom) (t : String)
    (as : Attrs) (ds : List Dom) (m : RM) (c : Cls) (data : Data Cls) (tag : String)
    (he : InFile es d) (hx : .elem t as ds ∈ es) (hm : dictGet readerCollectable t = some m)
    (hc : objClass m t = some c) (hid : identifiable c = true)
    (hg : gather m (.elem t as ds) = .ok data)
    (ht : tag = "INTRODUCTION" ∨ tag = "ANNOTATIONS") (hs : (firstElem tag ds).isSome = true) :
    ∃ e, readTree stop version d = .error e := by
  have hrej : tag ∈ rejected c := by
    unfold rejected
    rw [if_pos hid]
    rcases ht with rfl | rfl <;> simp
  refine C51_counterexample stop version d _ es .typeError he hx ?_ (.inr ⟨by decide, by decide⟩)
  unfold readAlone
  simp only [hm]
  rw [(C50_counterexample m t as ds c tag hc hrej hs).2 data hg]

/-! ### A file with a good unit, one of an unknown kind, one without name and one with an
introduction -/

def goodUnit : Dom := .elem "UNIT" [] [.elem "SHORT-NAME" [] [.text "Percent"]]
def unknown : Dom := .elem "VENDOR-ELEMENT" [] [.elem "SHORT-NAME" [] [.text "X"]]
def nameless : Dom := .elem "UNIT" [] []
def badUnit : Dom :=
  .elem "UNIT" [] [.elem "SHORT-NAME" [] [.text "Newton"], .elem "INTRODUCTION" [] []]

def file (es : List Dom) : Dom :=
  .elem "AUTOSAR" [] [.elem "AR-PACKAGES" [] [.elem "AR-PACKAGE" []
    [.elem "SHORT-NAME" [] [.text "P"], .elem "ELEMENTS" [] es]]]

theorem file_holds (es : List Dom) : InFile es (file es) :=
  ⟨[], _, List.mem_singleton.2 rfl, _, List.mem_singleton.2 rfl, rfl, .here rfl⟩

example : leftOut unknown = true ∧ leftOut nameless = true ∧ leftOut goodUnit = false ∧
    leftOut badUnit = false := by decide +kernel

theorem goodUnit_stays : leftOut goodUnit = false := by decide +kernel
theorem unknown_goes : leftOut unknown = true := by decide +kernel
theorem nameless_goes : leftOut nameless = true := by decide +kernel

example (version : Nat) : readTree false version (file [goodUnit, unknown, nameless]) =
    readTree false version (file [goodUnit]) := by
  rw [C51_left_out_partial version (file [goodUnit, unknown, nameless])]
  have : tidy (file [goodUnit, unknown, nameless]) = file [goodUnit] := by
    simp [file, tidy, tidyParts, tidyAll, goodUnit_stays, unknown_goes, nameless_goes]
  rw [this]

example (stop : Bool) (version : Nat) :
    ∃ e, readTree stop version (file [goodUnit, badUnit]) = .error e := by
  have h : isOk (gather .unit badUnit) = true := by decide +kernel
  cases hg : gather .unit badUnit with
  | error e => rw [hg] at h; cases h
  | ok data =>
    exact C51_introduction stop version _ _ "UNIT" [] _ .unit .Unit data "INTRODUCTION"
      (file_holds _) (List.mem_cons_of_mem _ (List.mem_singleton.2 rfl)) (by decide +kernel)
      (by decide +kernel) (by decide +kernel) hg (.inl rfl) (by decide +kernel)

example : isOk (readTree false 51 (file [goodUnit, unknown, nameless])) = true := by
  decide +kernel

end Verif.Props.CodecTidy
