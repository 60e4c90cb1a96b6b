import Verif.Codec.Mixed
/-
C25: descriptions and annotations that are written and read back.
-/
namespace Verif.Props.CodecDoc
open Verif.Py Verif.Enums Verif.Codec Verif.Codec.Spec

/-- The documentation classes, with the tag given to `write_str_elem` and the type name given to
`read_str_elem`. -/
def forms : List (Cls × Option String × Option String) :=
  [(.Annotation, none, none), (.DocumentationBlock, some "ANNOTATION-TEXT", none),
   (.MultilanguageLongName, some "LABEL", none), (.MultilanguageLongName, some "LONG-NAME", none),
   (.MultiLanguageOverviewParagraph, some "DESC", none), (.MultiLanguageParagraph, none, none),
   (.MultiLanguageVerbatim, none, none), (.LanguageLongName, none, none),
   (.LanguageParagraph, none, none), (.LanguageVerbatim, none, none),
   (.SingleLanguageUnitNames, some "DISPLAY-NAME", none), (.Superscript, none, none),
   (.Subscript, none, none), (.TechnicalTerm, none, none), (.EmphasisText, none, none),
   (.IndexEntry, none, none), (.Break, none, none)]

/-- The classes objects of these classes consist of. -/
def parts : List Cls := forms.map (·.1) ++ [.LanguageOverviewParagraph]

/-- C25: texts in any number of languages and annotations come back as they were, as long as text
stands only before the inline elements of a text and the inline elements are technical terms (in
unit names: sub- and superscripts). -/
theorem C25_intact_partial : ∀ x ∈ forms, ∀ v, WellFormed x.1 v → Intact x.2.1 x.2.2 v :=
  all_intact (S := parts) (by decide +kernel) (by decide +kernel)

/-- An annotation in two languages, with a technical term at the end of one of them. -/
def sample : Val Cls :=
  .obj .Annotation
    [("label", .obj .MultilanguageLongName [("elements", .list
       [.obj .LanguageLongName [("language", .enum ⟨"Language", "EN"⟩),
          ("parts", .list [.str "Short"])],
        .obj .LanguageLongName [("language", .enum ⟨"Language", "DE"⟩),
          ("parts", .list [.str "Kurz ", .obj .TechnicalTerm
            [("text", .str "x"), ("type", .str "OTHER")]])]])]),
     ("origin", .str "me"),
     ("text", .obj .DocumentationBlock [("elements", .list
       [.obj .MultiLanguageParagraph [("elements", .list
          [.obj .LanguageParagraph [("language", .enum ⟨"Language", "EN"⟩),
            ("parts", .list [.str "Long"])]])]])])]

example : WellFormed .Annotation sample := by decide +kernel

/-! ### Text and inline elements in any order -/

/-- C25: whatever the order of strings and inline elements in a text, what comes back is the text
at the beginning, then the inline elements, with the text at the beginning repeated where other
text followed; and reading fails exactly if there is an inline element other than a technical term,
or a text after an inline element but none at the beginning (`readBack`). -/
theorem C25_text_parts (c : Cls) (hc : c ∈ [Cls.LanguageLongName, .LanguageParagraph, .LanguageVerbatim])
    (m : Member) (hm : Lang m) (vs : List (Val Cls)) (hv : ∀ v ∈ vs, Inline (inlineOf c) v) :
    ∃ text, writeStrElem none (.obj c [("language", .enum m), ("parts", .list vs)]) = .ok text ∧
      match readBack term vs with
      | some us => readStrElem none text = .ok (.obj c ([("language", .enum m)] ++ partsOf us))
      | none => ∃ e, readStrElem none text = .error e := by
  have hp : plainVal xmlAttrs (langObj c (m, vs)) = true := plain_lang hv
  simp only [List.mem_cons, List.not_mem_nil, or_false] at hc
  rcases hc with rfl | rfl | rfl
  · exact mixed_top (Q := ReadsBack term _ _ vs) rfl rfl rfl rfl (long_name hm hv) hp
  · exact mixed_top (Q := ReadsBack term _ _ vs) rfl rfl rfl rfl (paragraph hm hv) hp
  · exact mixed_top (Q := ReadsBack term _ _ vs) rfl rfl rfl rfl (verbatim hm hv) hp

/-- C25: the same for descriptions and long names in several languages. -/
theorem C25_texts (x : Cls × Cls × String)
    (hx : x ∈ [(.MultiLanguageOverviewParagraph, .LanguageOverviewParagraph, "DESC"),
      (.MultilanguageLongName, .LanguageLongName, "LONG-NAME"),
      (.MultilanguageLongName, .LanguageLongName, "LABEL")])
    (ls : List (Member × List (Val Cls)))
    (hl : ∀ l ∈ ls, Lang l.1 ∧ ∀ v ∈ l.2, Inline (inlineOf x.2.1) v) :
    ∃ text, writeStrElem (some x.2.2) (.obj x.1 [("elements", .list (ls.map fun l =>
        .obj x.2.1 [("language", .enum l.1), ("parts", .list l.2)]))]) = .ok text ∧
      match textsBack term x.2.1 ls with
      | some os => readStrElem none text =
          .ok (.obj x.1 (if os = [] then [] else [("elements", .list os)]))
      | none => ∃ e, readStrElem none text = .error e := by
  have hl' : ∀ l ∈ ls, l.1.cls = "Language" ∧ enumOk l.1 = true ∧
      ∀ v ∈ l.2, Inline (inlineOf x.2.1) v := fun l h => ⟨(hl l h).1.1, (hl l h).1.2, (hl l h).2⟩
  have hp : plainVal xmlAttrs (.obj x.1 [("elements", .list (ls.map (langObj x.2.1)))]) = true := by
    have : plainList xmlAttrs (ls.map (langObj x.2.1)) = true := by
      clear hl'
      induction ls with
      | nil => rfl
      | cons l ls ih =>
        rw [List.map_cons, plainList, Bool.and_eq_true]
        exact ⟨plain_lang (hl l (by simp)).2, ih fun l' h => hl l' (by simp [h])⟩
    simp [plainVal, plainFields, this]
  simp only [List.mem_cons, List.not_mem_nil, or_false] at hx
  rcases hx with rfl | rfl | rfl
  · exact mixed_top (Q := fun res => match textsBack term _ ls with
      | some os => res = .ok (.obj _ (if os = [] then [] else [("elements", .list os)]))
      | none => ∃ e, res = .error e) rfl rfl rfl rfl
      (multi_core (fun m vs a b => overview ⟨a, b⟩) rfl rfl (by decide +kernel) rfl rfl hl') hp
  · exact mixed_top (Q := fun res => match textsBack term _ ls with
      | some os => res = .ok (.obj _ (if os = [] then [] else [("elements", .list os)]))
      | none => ∃ e, res = .error e) rfl rfl rfl rfl
      (multi_core (fun m vs a b => long_name ⟨a, b⟩) rfl rfl (by simp) rfl rfl hl') hp
  · exact mixed_top (Q := fun res => match textsBack term _ ls with
      | some os => res = .ok (.obj _ (if os = [] then [] else [("elements", .list os)]))
      | none => ∃ e, res = .error e) rfl rfl rfl rfl
      (multi_core (fun m vs a b => long_name ⟨a, b⟩) rfl rfl (by simp) rfl rfl hl') hp

/-- C25: the same for unit names, which have no language and whose inline elements are sub- and
superscripts. -/
theorem C25_unit_names (vs : List (Val Cls)) (hv : ∀ v ∈ vs, Inline (inlineOf .SingleLanguageUnitNames) v) :
    ∃ text, writeStrElem (some "DISPLAY-NAME") (.obj .SingleLanguageUnitNames [("parts", .list vs)]) =
        .ok text ∧
      match readBack script vs with
      | some us => readStrElem none text = .ok (.obj .SingleLanguageUnitNames (partsOf us))
      | none => ∃ e, readStrElem none text = .error e := by
  have hp : plainVal xmlAttrs (.obj .SingleLanguageUnitNames [("parts", .list vs)]) = true := by
    simp [plainVal, plainFields, plain_parts hv]
  exact mixed_top (Q := ReadsBack script _ [] vs) rfl rfl rfl rfl (unit_names hv) hp

/-- The cases described above: unchanged, text replaced, and not readable. -/
example : (∀ v ∈ [.str "a ", .obj .TechnicalTerm [("text", .str "T")], .str " b"],
      Inline (inlineOf .LanguageParagraph) v) ∧
    readBack term [.str "a ", .obj .TechnicalTerm [("text", .str "T")]] =
      some [.str "a ", .obj .TechnicalTerm [("text", .str "T")]] ∧
    readBack term [.str "a ", .obj .TechnicalTerm [("text", .str "T")], .str " b"] =
      some [.str "a ", .obj .TechnicalTerm [("text", .str "T")], .str "a "] ∧
    readBack term [.obj .TechnicalTerm [("text", .str "T")], .str " b"] = none ∧
    readBack term [.str "a ", .obj .EmphasisText [("elements", .str "b")]] = none := by
  refine ⟨?_, by simp [readBack, echo, leading, term], by simp [readBack, echo, leading, term],
    by simp [readBack, echo, leading, term], by simp [readBack, echo, leading, term]⟩
  intro v hv
  simp only [List.mem_cons, List.not_mem_nil, or_false] at hv
  rcases hv with rfl | rfl | rfl
  · exact Or.inl ⟨_, rfl, by decide +kernel⟩
  · exact Or.inr ⟨.TechnicalTerm, by decide +kernel, by decide +kernel⟩
  · exact Or.inl ⟨_, rfl, by decide +kernel⟩

/-- What does not survive: text after a technical term is replaced by the text before it; with no
text before it, reading fails; so it does with emphasized text. -/
theorem C25_findings :
    (∃ text, writeStrElem none (.obj .LanguageParagraph [("language", .enum ⟨"Language", "EN"⟩),
        ("parts", .list [.str "a ", .obj .TechnicalTerm [("text", .str "T")], .str " b"])]) =
          .ok text ∧
      readStrElem none text = .ok (.obj .LanguageParagraph [("language", .enum ⟨"Language", "EN"⟩),
        ("parts", .list [.str "a ", .obj .TechnicalTerm [("text", .str "T")], .str "a "])])) ∧
    (∃ text e, writeStrElem none (.obj .LanguageParagraph [("language", .enum ⟨"Language", "EN"⟩),
        ("parts", .list [.obj .TechnicalTerm [("text", .str "T")], .str " b"])]) = .ok text ∧
      readStrElem none text = .error e) ∧
    (∃ text e, writeStrElem none (.obj .LanguageParagraph [("language", .enum ⟨"Language", "EN"⟩),
        ("parts", .list [.str "a ", .obj .EmphasisText [("elements", .str "b")]])]) =
          .ok text ∧
      readStrElem none text = .error e) := by
  have hl : Lang ⟨"Language", "EN"⟩ := by decide +kernel
  have hs : ∀ s : String, plainText s = true → Inline (inlineOf .LanguageParagraph) (.str s) :=
    fun s h => Or.inl ⟨_, rfl, h⟩
  have ht : Inline (inlineOf .LanguageParagraph) (.obj .TechnicalTerm [("text", .str "T")]) :=
    Or.inr ⟨.TechnicalTerm, by decide +kernel, by decide +kernel⟩
  have he : Inline (inlineOf .LanguageParagraph) (.obj .EmphasisText [("elements", .str "b")]) :=
    Or.inr ⟨.EmphasisText, by decide +kernel, by decide +kernel⟩
  have ha := hs "a " (by decide +kernel)
  have hb := hs " b" (by decide +kernel)
  refine ⟨?_, ?_, ?_⟩
  · exact C25_text_parts .LanguageParagraph (by simp) _ hl
      [.str "a ", .obj .TechnicalTerm [("text", .str "T")], .str " b"] (by simp [ha, hb, ht])
  · obtain ⟨text, h1, e, h2⟩ := C25_text_parts .LanguageParagraph (by simp) _ hl
      [.obj .TechnicalTerm [("text", .str "T")], .str " b"] (by simp [hb, ht])
    exact ⟨text, e, h1, h2⟩
  · obtain ⟨text, h1, e, h2⟩ := C25_text_parts .LanguageParagraph (by simp) _ hl
      [.str "a ", .obj .EmphasisText [("elements", .str "b")]] (by simp [ha, he])
    exact ⟨text, e, h1, h2⟩

end Verif.Props.CodecDoc
