import Verif.Xml.Exact
/-
C17 (the text writer emits balanced, indented markup that parses back) and C18 (which texts
survive).
-/
namespace Verif.Props.Xml
open Verif.Py Verif.Xml Verif.Xml.Spec

/-- A small document with attributes, mixed content, an empty element and nesting. -/
def sample : Xml :=
  .node "AR-PACKAGE" [("UUID", "1-2")] [.leaf "SHORT-NAME" [] "Pkg",
    .node "LONG-NAME" [] [.mixed "L-4" [("L", "EN")] [.text "a ", .text "", .text "b",
      .elem "SUP" [] "2", .text " > 1"]],
    .leaf "ELEMENTS" [] "", .node "AR-PACKAGES" [] []]

/-- C17: writing an element never fails, and afterwards no element is open and the indentation
is back at zero – whatever the element contains. -/
theorem C17_balanced (x : Xml) :
    ∃ w, emit .init x = .ok w ∧ w.stack = [] ∧ w.level = 0 ∧ w.indent = [] := by
  obtain ⟨w, h1, -, h3, h4, h5⟩ := emit_init x
  exact ⟨w, h1, h5, h3, h4⟩

/-- C17: writing an element in the middle of a document leaves open elements and indentation
as they were, and appends exactly the lines of that element. -/
theorem C17_nested (d : Nat) (w : WState) (x : Xml) (h1 : w.level = d)
    (h2 : w.indent = List.replicate (2 * d) ' ') (h3 : 1 < w.line) :
    ∃ w', emit w x = .ok w' ∧ w'.stack = w.stack ∧ w'.level = w.level ∧ w'.indent = w.indent ∧
      w'.out = w.out ++ '\n' :: joinLines (lines d x) := by
  refine ⟨_, emit_after d w x ⟨h1, h2, by omega⟩ h3, rfl, rfl, rfl, ?_⟩
  obtain ⟨t, ls, hl⟩ := lines_head d x
  simp only [after, hl, block_cons, joinLines_block]

/-- C17: the text is the element's lines, each indented two blanks per open element. -/
theorem C17_lines (x : Xml) : writeElem x = .ok (joinLines (lines 0 x)) := by
  obtain ⟨w, h1, h2, -⟩ := emit_init x
  simp [writeElem, h1, Except.map, h2]

example : writeElem sample = .ok ("<AR-PACKAGE UUID=\"1-2\">\n  <SHORT-NAME>Pkg</SHORT-NAME>\n" ++
    "  <LONG-NAME>\n    <L-4 L=\"EN\">a b<SUP>2</SUP> > 1</L-4>\n  </LONG-NAME>\n" ++
    "  <ELEMENTS/>\n  <AR-PACKAGES>\n  </AR-PACKAGES>\n</AR-PACKAGE>").toList := by
  rw [C17_lines]; decide +kernel

theorem writeDocument_eq (x : Xml) : writeDocument x = .ok (xmlDecl ++ '\n' :: render 0 x) := by
  unfold writeDocument
  rw [emit_after 0 _ x ⟨rfl, rfl, by decide⟩ (by decide)]
  simp only [Except.map, after, block_lines]
  simp [WState.addLine, WState.init, indentOf]

/-- C17: if nothing in the element needs escaping, its text parses back to the element, up to
white space between child elements. -/
theorem C17_parses (x : Xml) (h : Safe x) :
    ∃ t dom, writeElem x = .ok t ∧ parseElement t = some dom ∧ Same dom x := by
  refine ⟨_, domOf 0 x, C17_lines x, ?_, same_domOf 0 x⟩
  rw [joinLines_render]
  exact parse_render x h [] (by simp)

/-- C17 for whole documents with the XML declaration. -/
theorem C17_document_parses (x : Xml) (h : Safe x) :
    ∃ t dom, writeDocument x = .ok t ∧ parseDocument t = some dom ∧ Same dom x := by
  refine ⟨_, domOf 0 x, writeDocument_eq x, ?_, same_domOf 0 x⟩
  unfold parseDocument
  rw [List.take_left', List.drop_left'] <;> try rfl
  rw [if_pos rfl]
  exact parse_render x h ['\n'] (by simp)

theorem safeAttrs_of {as : Attrs} (h : ∀ a ∈ as, Name a.1 ∧ SafeAttr a.2)
    (h' : (as.map Prod.fst).Nodup) : SafeAttrs as := ⟨h, h'⟩

theorem notInfix_of_not_mem {s : List Char} (h : '>' ∉ s) : ¬ [']', ']', '>'] <:+: s := by
  rintro ⟨a, b, rfl⟩
  simp at h

/-- The sample meets the hypothesis. -/
theorem sample_safe : Safe sample := by
  have hn : ∀ s ∈ ["AR-PACKAGE", "UUID", "SHORT-NAME", "LONG-NAME", "L-4", "L", "SUP", "ELEMENTS",
      "AR-PACKAGES"], Name s := by
    intro s hs
    simp only [List.mem_cons, List.not_mem_nil, or_false] at hs
    rcases hs with rfl | rfl | rfl | rfl | rfl | rfl | rfl | rfl | rfl <;>
      exact ⟨by decide, by decide⟩
  have ha : ∀ k v, Name k → SafeAttr v → SafeAttrs [(k, v)] := by
    intro k v hk hv
    exact ⟨by simp only [List.mem_singleton]; rintro a rfl; exact ⟨hk, hv⟩, by simp⟩
  have ht : ∀ s ∈ ["Pkg", "a b", "2", ""], SafeText s := by
    intro s hs
    simp only [List.mem_cons, List.not_mem_nil, or_false] at hs
    rcases hs with rfl | rfl | rfl | rfl <;>
      exact ⟨by decide, notInfix_of_not_mem (by decide)⟩
  have hgt : SafeText " > 1" := by
    refine ⟨by decide, ?_⟩
    rintro ⟨a, b, hab⟩
    have : ']' ∈ " > 1".toList := by rw [← hab]; simp
    revert this; decide
  have e0 := SafeAttrs.nil
  have hm : mergeParts [.text "a ", .text "", .text "b", .elem "SUP" [] "2", .text " > 1"] =
      [.text "a b", .elem "SUP" [] "2", .text " > 1"] := by decide
  simp only [sample, Safe, SafeAll, hm]
  refine ⟨hn _ (by simp), ha _ _ (hn _ (by simp)) (by unfold SafeAttr; decide),
    ⟨hn _ (by simp), e0, ht _ (by simp)⟩,
    ⟨hn _ (by simp), e0, ⟨hn _ (by simp), ha _ _ (hn _ (by simp)) (by unfold SafeAttr; decide), ?_⟩, trivial⟩,
    ⟨hn _ (by simp), e0, ht _ (by simp)⟩, ⟨hn _ (by simp), e0, trivial⟩, trivial⟩
  simp only [List.mem_cons, List.not_mem_nil, or_false, forall_eq_or_imp, forall_eq]
  exact ⟨ht _ (by simp), ⟨hn _ (by simp), e0, ht _ (by simp)⟩, hgt⟩

/-! ### C18 -/

/-- How the text of an element is seen by a reader: the text of an element without child
elements (`""` when there is none). -/
def readText : Dom → Option String
  | .elem _ _ [] => some ""
  | .elem _ _ [.text t] => some t
  | _ => none

/-- C18: a text written as the content of an element is read back unchanged exactly when it
contains only legal characters, no `<`, no `&`, no carriage return and no `]]>`. -/
theorem C18_exact_partial (tag : String) (ht : Name tag) (t : String) :
    (∃ s dom, writeElem (.leaf tag [] t) = .ok s ∧ parseElement s = some dom ∧
      dom = .elem tag [] (if t = "" then [] else [.text t])) ↔ SafeText t := by
  constructor
  · rintro ⟨s, dom, h1, h2, rfl⟩
    rw [C17_lines] at h1
    simp only [lines, joinLines, indentOf, Nat.mul_zero, List.replicate_zero, List.nil_append,
      Except.ok.injEq] at h1
    subst h1
    by_cases h0 : t = ""
    · subst h0; exact ⟨by simp, by simp⟩
    · rw [if_neg h0] at h2
      exact survives_safe tag ht t h0 h2
  · intro h
    refine ⟨_, domOf 0 (.leaf tag [] t), C17_lines _, ?_, by rw [domOf]⟩
    rw [joinLines_render]
    exact parse_render (.leaf tag [] t) (by rw [Safe]; exact ⟨ht, SafeAttrs.nil, h⟩) [] (by simp)

example : SafeText "Speed > 10 km/h; \"quoted\"" ∧ Name "SHORT-NAME" := by
  refine ⟨⟨by decide, ?_⟩, by decide, by decide⟩
  rintro ⟨a, b, hab⟩
  have : ']' ∈ "Speed > 10 km/h; \"quoted\"".toList := by rw [← hab]; simp
  revert this; decide

/-- Finding for C18: texts are written without escaping.  A `<` or a bare `&` makes the
document unreadable, and `&lt;` comes back as `<`. -/
theorem C18_counterexample :
    writeElem (.leaf "VT" [] "a<b") = .ok "<VT>a<b</VT>".toList ∧
    parseElement "<VT>a<b</VT>".toList = none ∧
    parseElement "<VT>R&D</VT>".toList = none ∧
    (parseElement "<VT>&lt;</VT>".toList).bind readText = some "<" := by
  refine ⟨by rw [C17_lines]; decide +kernel, ?_, ?_, ?_⟩
  · have : (parseElement "<VT>a<b</VT>".toList).isNone = true := by decide +kernel
    simpa using this
  · have : (parseElement "<VT>R&D</VT>".toList).isNone = true := by decide +kernel
    simpa using this
  · decide +kernel

/-- The same for attributes: a double quote in a UUID ends the attribute early. -/
theorem C18_attribute_counterexample :
    ∃ s, writeElem (.leaf "T" [("UUID", "a\"b")] "") = .ok s ∧ parseElement s = none := by
  refine ⟨_, C17_lines _, ?_⟩
  have : (parseElement (joinLines (lines 0 (.leaf "T" [("UUID", "a\"b")] "")))).isNone = true := by
    decide +kernel
  simpa using this

end Verif.Props.Xml
