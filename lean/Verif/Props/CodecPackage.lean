import Verif.Codec.PackageRt
/-
C22: package trees survive XML.  C26: reading a package keeps the first element of every name.
C47: the schema version.
-/
namespace Verif.Props.CodecPackage
open Verif.Py Verif.Num Verif.Codec Verif.Codec.Spec

/-- C22: every document written (`skip`: without the attributes of the root element, as `write_str`
does by default, or with them, as `write_file` does) can be read by every reader, with or without
stop_on_error, and what is read has the same packages, sub-packages and elements in the same order,
with the same names and of the same classes, and with the same contents, except for the attributes
of elements that do not survive by themselves. -/
theorem C22_documents (skip stop : Bool) (version : Nat) (doc : Document) (h : WellFormedDoc doc) :
    ∃ text doc', writeDoc skip doc = .ok text ∧ readDoc stop version text = .ok doc' ∧
      outlines doc'.packages = outlines doc.packages ∧
      SamePkgs (remainsPkgs doc.packages) doc'.packages ∧
      (noWholePkgs doc.packages = true → doc'.packages = remainsPkgs doc.packages) := by
  obtain ⟨h1, h2, h3⟩ := h
  obtain ⟨hl, hd⟩ := looseAll_of _ h2
  obtain ⟨text, w, r, -⟩ := doc_rt skip stop version (doc := doc) ⟨h1, hl, h3⟩
  have r := r (.inr hd)
  rw [firstsAll_distinct _ hd] at r
  exact ⟨text, _, w, r, outlines_norm _, same_pkgs _, whole_pkgs _⟩

/-- Two packages, one with an element and a sub-package that has elements itself, one empty. -/
def sample : Document where
  schemaVersion := 51
  packages :=
    [.mk [("name", .str "DataTypes"), ("category", .str "STANDARD")]
       [.obj .Unit [("name", .str "Percent"), ("factor", .num (.float (.fin false 1 (-2))))]]
       [.mk [("name", .str "BaseTypes")]
          [.obj .SwBaseType [("name", .str "uint8"), ("size", .num (.int 8))],
           .obj .SwBaseType [("name", .str "uint16"), ("size", .num (.int 16))]]
          []],
     .mk [("name", .str "Empty")] [] []]

example : WellFormedDoc sample := by
  refine ⟨by decide, ⟨⟨by decide +kernel, ?_, by decide +kernel, ⟨by decide +kernel, ?_,
    by decide +kernel, trivial⟩, trivial⟩, ⟨by decide +kernel, by simp, by decide +kernel, trivial⟩,
    trivial⟩, by decide +kernel⟩
  · simp only [List.mem_singleton]
    rintro v rfl
    exact ⟨.Unit, by decide +kernel, by decide +kernel⟩
  · simp only [List.mem_cons, List.not_mem_nil, or_false]
    rintro v (rfl | rfl)
    · exact ⟨.SwBaseType, by decide +kernel, by decide +kernel⟩
    · exact ⟨.SwBaseType, by decide +kernel, by decide +kernel⟩

/-! ### C26 -/

/-- C26: a document in which several elements of a package have the same name, read without
stop_on_error, has in every package exactly the first element of each name, in order, with the same
contents as in C22; and all packages. -/
theorem C26_keeps_first (skip : Bool) (version : Nat) (doc : Document) (h : LooseDoc doc) :
    ∃ text doc', writeDoc skip doc = .ok text ∧ readDoc false version text = .ok doc' ∧
      outlines doc'.packages = outlines (firstsPkgs doc.packages) ∧
      SamePkgs (remainsPkgs (firstsPkgs doc.packages)) doc'.packages := by
  obtain ⟨text, w, r, -⟩ := doc_rt skip false version h
  exact ⟨text, _, w, r (.inl rfl), outlines_norm _, same_pkgs _⟩

/-- C26: with stop_on_error the same document cannot be read if there is any repetition. -/
theorem C26_stops (skip : Bool) (version : Nat) (doc : Document) (h : LooseDoc doc)
    (hd : ¬ DistinctPkgs doc.packages) :
    ∃ text, writeDoc skip doc = .ok text ∧
      readDoc true version text = .error .duplicateElement := by
  obtain ⟨text, w, -, r⟩ := doc_rt skip true version h
  exact ⟨text, w, r rfl hd⟩

/-- C26: what becomes of a document with any repetition of names.  If no sub-package has the name of
another or of an element of its package (and, with stop_on_error, no element has the name of
another), and the packages of the document have different names, it is read, with the first element
of each name; if only packages of the document have the same name, reading raises ValueError; if
only names inside packages clash, DuplicateElement; if both, one of them. -/
theorem C26_outcome (skip stop : Bool) (version : Nat) (doc : Document) (h : AnyPkgs doc.packages) :
    ∃ text, writeDoc skip doc = .ok text ∧
      (ReadablePkgs stop doc.packages → (doc.packages.map Pkg.name).Nodup →
        ∃ doc', readDoc stop version text = .ok doc' ∧
          outlines doc'.packages = outlines (firstsPkgs doc.packages) ∧
          SamePkgs (remainsPkgs (firstsPkgs doc.packages)) doc'.packages) ∧
      (ReadablePkgs stop doc.packages → ¬ (doc.packages.map Pkg.name).Nodup →
        readDoc stop version text = .error .valueError) ∧
      (¬ ReadablePkgs stop doc.packages → (doc.packages.map Pkg.name).Nodup →
        readDoc stop version text = .error .duplicateElement) ∧
      (¬ ReadablePkgs stop doc.packages → readDoc stop version text = .error .duplicateElement ∨
        readDoc stop version text = .error .valueError) := by
  obtain ⟨text, w, r1, r2, r3, r4⟩ := doc_any skip stop version h
  exact ⟨text, w, fun a b => ⟨_, r1 a b, outlines_norm _, same_pkgs _⟩, r2, r3, r4⟩

/-- A sub-package with the name of an element. -/
def clash : Document where
  schemaVersion := 51
  packages :=
    [.mk [("name", .str "P")] [.obj .Unit [("name", .str "a")]] [.mk [("name", .str "a")] [] []]]

example : AnyPkgs clash.packages ∧ ¬ ReadablePkgs false clash.packages ∧
    (clash.packages.map Pkg.name).Nodup := by
  refine ⟨⟨⟨by decide +kernel, ?_, ⟨by decide +kernel, by simp, trivial⟩, trivial⟩, trivial⟩, ?_,
    by decide +kernel⟩
  · simp only [List.mem_singleton]
    rintro v rfl
    exact ⟨.Unit, by decide +kernel, by decide +kernel⟩
  · rintro ⟨⟨-, -, h, -⟩, -⟩
    exact h _ (List.mem_singleton.2 rfl) (by decide +kernel)

/-- Three elements, of which the first and the last have the same name. -/
def repeated : Document where
  schemaVersion := 51
  packages :=
    [.mk [("name", .str "P")]
       [.obj .SwBaseType [("name", .str "a"), ("size", .num (.int 8))],
        .obj .Unit [("name", .str "b")],
        .obj .SwBaseType [("name", .str "a"), ("size", .num (.int 16))]]
       []]

example : LooseDoc repeated ∧ ¬ DistinctPkgs repeated.packages ∧
    firstsPkgs repeated.packages = [.mk [("name", .str "P")]
       [.obj .SwBaseType [("name", .str "a"), ("size", .num (.int 8))],
        .obj .Unit [("name", .str "b")]] []] := by
  refine ⟨⟨by decide, ⟨⟨by decide +kernel, ?_, by decide +kernel, by simp, trivial⟩, trivial⟩,
    by decide +kernel⟩, ?_, rfl⟩
  · simp only [List.mem_cons, List.not_mem_nil, or_false]
    rintro v (rfl | rfl | rfl)
    · exact ⟨.SwBaseType, by decide +kernel, by decide +kernel⟩
    · exact ⟨.Unit, by decide +kernel, by decide +kernel⟩
    · exact ⟨.SwBaseType, by decide +kernel, by decide +kernel⟩
  · rintro ⟨⟨h, -⟩, -⟩
    revert h
    decide +kernel

/-- What becomes of one child of ELEMENTS in general: no reader for its tag, an exception, or an
element. -/
def childResult (k : RDen Cls RM) : Option (Except PyErr (Val Cls)) :=
  (dictGet readerCollectable k.tag).map k.read

/-- The element a child yields, if it does. -/
def elementOf (k : RDen Cls RM) : Option (Val Cls) :=
  match childResult k with
  | some (.ok v) => some v
  | _ => none

/-- An element that may stand in a package. -/
def Fine (v : Val Cls) : Prop := ∃ c fs, v = .obj c fs ∧ isARElement c = true

/-- C26, for arbitrary files: whatever the children of ELEMENTS are, as long as each that has a
reader yields an element or a ParseError, the elements read are the first of each name among those
that could be read. -/
theorem C26_any_children (ks : List (RDen Cls RM))
    (h : ∀ k ∈ ks, ∀ r, childResult k = some r → r = .error .parseError ∨ ∃ v, r = .ok v ∧ Fine v) :
    readElements false [] ks = .ok (firstOfEach (ks.filterMap elementOf)) := by
  suffices H : ∀ acc, readElements false acc ks = .ok (acc ++ (firstOfEach (ks.filterMap elementOf)).filter fun w => decide (elemName w ∉ acc.map elemName)) by
    rw [H []]
    congr 1
    rw [List.nil_append, List.filter_eq_self]
    simp
  induction ks with
  | nil => intro acc; simp [readElements, firstOfEach]
  | cons k ks ih =>
    intro acc
    have ih := ih (fun k' hk' => h k' (by simp [hk']))
    have hk := h k (by simp)
    unfold childResult at hk
    rw [readElements]
    cases hd : dictGet readerCollectable k.tag with
    | none => simp only [elementOf, childResult, hd, Option.map_none, List.filterMap_cons]; exact ih acc
    | some m =>
      rw [hd] at hk
      rcases hk _ rfl with hr | ⟨v, hr, c, fs, rfl, hc⟩
      · simp only [elementOf, childResult, hd, Option.map_some, List.filterMap_cons, hr, report,
          Bool.false_eq_true, if_false, true_or, if_true]
        exact ih acc
      · simp only [elementOf, childResult, hd, Option.map_some, List.filterMap_cons, hr, hc,
          Bool.true_eq_false, if_false]
        rw [firstOfEach]
        by_cases hm : elemName (.obj c fs) ∈ acc.map elemName
        · rw [if_pos hm, report]
          simp only [Bool.false_eq_true, if_false, or_true, if_true]
          rw [ih acc, List.filter_cons_of_neg (by simpa using hm), ← filter_names]
          congr 2
          apply List.filter_congr
          intro w _
          simp only [List.mem_append, List.mem_singleton, decide_eq_decide]
          constructor
          · rintro a (b | b)
            · exact a b
            · rw [b] at a; exact a hm
          · exact fun a b => a (.inl b)
        · rw [if_neg hm, ih (acc ++ [Val.obj c fs]), List.filter_cons_of_pos (by simpa using hm)]
          simp only [List.map_append, List.map_cons, List.map_nil, filter_names]
          simp only [List.append_assoc, List.singleton_append]

/-- C26, for arbitrary files: with stop_on_error the first child whose element has a name that was
read before ends reading with DuplicateElement, whatever follows. -/
theorem C26_any_repetition (pre post : List (RDen Cls RM)) (k : RDen Cls RM)
    (hpre : ∀ p ∈ pre, ∀ r, childResult p = some r → ∃ v, r = .ok v ∧ Fine v)
    (hn : ((pre.filterMap elementOf).map elemName).Nodup)
    (hk : ∃ v, childResult k = some (.ok v) ∧ Fine v ∧ ∃ p ∈ pre, ∃ w,
      childResult p = some (.ok w) ∧ elemName w = elemName v) :
    readElements true [] (pre ++ k :: post) = .error .duplicateElement := by
  obtain ⟨v, hv, ⟨c, fs, rfl, hc⟩, p, hp, w, hw, hwn⟩ := hk
  suffices H : ∀ (pre : List (RDen Cls RM)) (acc : List (Val Cls)),
      (∀ p ∈ pre, ∀ r, childResult p = some r → ∃ v, r = .ok v ∧ Fine v) →
      ((acc.map elemName) ++ (pre.filterMap elementOf).map elemName).Nodup →
      (elemName (.obj c fs) ∈ acc.map elemName ∨ ∃ p ∈ pre, ∃ w,
        childResult p = some (.ok w) ∧ elemName w = elemName (.obj c fs)) →
      readElements true acc (pre ++ k :: post) = .error .duplicateElement by
    exact H pre [] hpre (by simpa using hn) (.inr ⟨p, hp, w, hw, hwn⟩)
  intro pre
  induction pre with
  | nil =>
    intro acc _ _ hm
    have hm : elemName (.obj c fs) ∈ acc.map elemName := by
      rcases hm with hm | ⟨p, hp, -⟩
      · exact hm
      · simp at hp
    rw [List.nil_append, readElements]
    unfold childResult at hv
    cases hd : dictGet readerCollectable k.tag with
    | none => simp [hd] at hv
    | some m =>
      rw [hd] at hv
      simp only [Option.map_some, Option.some.injEq] at hv
      simp only [hv, hc, Bool.true_eq_false, if_false]
      rw [if_pos hm]
      rfl
  | cons q pre ih =>
    intro acc hpre hn hm
    have hq := hpre q (by simp)
    have hpre' : ∀ p ∈ pre, ∀ r, childResult p = some r → ∃ v, r = .ok v ∧ Fine v :=
      fun p hp => hpre p (by simp [hp])
    rw [List.cons_append, readElements]
    unfold childResult at hq
    cases hd : dictGet readerCollectable q.tag with
    | none =>
      have hqn : childResult q = none := by simp [childResult, hd]
      simp only [List.filterMap_cons, elementOf, hqn] at hn
      refine ih acc hpre' hn (hm.imp id ?_)
      rintro ⟨p, hp, w, hw, he⟩
      rcases List.mem_cons.1 hp with rfl | hp
      · rw [hqn] at hw; cases hw
      · exact ⟨p, hp, w, hw, he⟩
    | some m =>
      rw [hd] at hq
      obtain ⟨u, hu, c', fs', rfl, hc'⟩ := hq _ rfl
      have hqs : childResult q = some (.ok (.obj c' fs')) := by simp [childResult, hd, hu]
      simp only [List.filterMap_cons, elementOf, hqs, List.map_cons] at hn
      simp only [hu, hc', Bool.true_eq_false, if_false]
      rw [if_neg (by
        intro hmem
        exact (List.nodup_append.1 hn).2.2 _ hmem _ (by simp) rfl)]
      refine ih (acc ++ [.obj c' fs']) hpre' (by simpa using hn) ?_
      rcases hm with hm | ⟨p, hp, w, hw, he⟩
      · exact .inl (by simp only [List.map_append, List.mem_append]; exact .inl hm)
      · rcases List.mem_cons.1 hp with rfl | hp
        · rw [hqs] at hw
          simp only [Option.some.injEq, Except.ok.injEq] at hw
          subst hw
          exact .inl (by simp [he])
        · exact .inr ⟨p, hp, w, hw, he⟩

/-- Sub-packages, in contrast, raise DuplicateElement at any repetition (also of the name of an
element), with and without stop_on_error. -/
theorem C26_subpackages (taken : List (Option String)) (ht : taken.Nodup) (qs : List PDen)
    (ps : List Pkg) (h : qs.map PDen.pkg = ps.map .ok) :
    readSubs taken qs =
      if (taken ++ ps.map Pkg.name).Nodup then .ok ps else .error .duplicateElement := by
  induction qs generalizing taken ps with
  | nil =>
    cases ps with
    | nil => simp [readSubs, ht]
    | cons p ps => simp at h
  | cons q qs ih =>
    cases ps with
    | nil => simp at h
    | cons p ps =>
      simp only [List.map_cons, List.cons.injEq] at h
      rw [readSubs, h.1]
      simp only
      by_cases hm : p.name ∈ taken
      · rw [if_pos hm, if_neg]
        intro hn
        exact (List.nodup_append.1 hn).2.2 _ hm _ (by simp) rfl
      · have hnd : (taken ++ [p.name]).Nodup := by
          rw [List.nodup_append]
          refine ⟨ht, by simp, ?_⟩
          rintro a ha b hb rfl
          simp only [List.mem_singleton] at hb
          subst hb
          exact hm ha
        rw [if_neg hm, ih _ hnd ps h.2]
        simp only [List.append_assoc, List.singleton_append, List.map_cons]
        by_cases hn : (taken ++ p.name :: ps.map Pkg.name).Nodup
        · simp only [if_pos hn]
        · simp only [if_neg hn]

/-- And packages of the document raise ValueError. -/
theorem C26_root_packages (taken : List (Option String)) (ht : taken.Nodup) (qs : List PDen)
    (ps : List Pkg) (h : qs.map PDen.pkg = ps.map .ok) :
    readRoot taken qs =
      if (taken ++ ps.map Pkg.name).Nodup then .ok ps else .error .valueError := by
  induction qs generalizing taken ps with
  | nil =>
    cases ps with
    | nil => simp [readRoot, ht]
    | cons p ps => simp at h
  | cons q qs ih =>
    cases ps with
    | nil => simp at h
    | cons p ps =>
      simp only [List.map_cons, List.cons.injEq] at h
      rw [readRoot, h.1]
      simp only
      by_cases hm : p.name ∈ taken
      · rw [if_pos hm, if_neg]
        intro hn
        exact (List.nodup_append.1 hn).2.2 _ hm _ (by simp) rfl
      · have hnd : (taken ++ [p.name]).Nodup := by
          rw [List.nodup_append]
          refine ⟨ht, by simp, ?_⟩
          rintro a ha b hb rfl
          simp only [List.mem_singleton] at hb
          subst hb
          exact hm ha
        rw [if_neg hm, ih _ hnd ps h.2]
        simp only [List.append_assoc, List.singleton_append, List.map_cons]
        by_cases hn : (taken ++ p.name :: ps.map Pkg.name).Nodup
        · simp only [if_pos hn]
        · simp only [if_neg hn]

/-! ### C47 -/

/-- C47: a document written with its root attributes (`write_file`) has the same schema version
when it is read, whatever the version of the reader was before; the packages are those of C22. -/
theorem C47_file_partial (stop : Bool) (version : Nat) (doc : Document) (h : WellFormedDoc doc) :
    ∃ text doc', writeDoc false doc = .ok text ∧ readDoc stop version text = .ok doc' ∧
      doc'.schemaVersion = doc.schemaVersion := by
  obtain ⟨h1, h2, h3⟩ := h
  obtain ⟨hl, hd⟩ := looseAll_of _ h2
  obtain ⟨text, w, r, -⟩ := doc_rt false stop version (doc := doc) ⟨h1, hl, h3⟩
  exact ⟨text, _, w, r (.inr hd), rfl⟩

/-- C47 is false for documents written without root attributes (the default of `write_str`): they
get the version the reader has at that time. -/
theorem C47_str_counterexample (stop : Bool) (version : Nat) (doc : Document) (h : WellFormedDoc doc) :
    ∃ text doc', writeDoc true doc = .ok text ∧ readDoc stop version text = .ok doc' ∧
      doc'.schemaVersion = version := by
  obtain ⟨h1, h2, h3⟩ := h
  obtain ⟨hl, hd⟩ := looseAll_of _ h2
  obtain ⟨text, w, r, -⟩ := doc_rt true stop version (doc := doc) ⟨h1, hl, h3⟩
  exact ⟨text, _, w, r (.inr hd), rfl⟩

/-- C47, for arbitrary files: if no attribute of the root element has a name ending in
"schemaLocation", the document has the version of the reader, whatever the other attributes are. -/
theorem C47_unversioned (stop : Bool) (version : Nat) (text : List Char) (doc : Document)
    (tag : String) (attrs : List (String × String)) (ds : List Verif.Xml.Spec.Dom)
    (hp : Verif.Xml.Spec.parseDocument text = some (.elem tag attrs ds))
    (hr : readDoc stop version text = .ok doc)
    (hn : ∀ a ∈ attrs, ¬ "schemaLocation".toList <:+ a.1.toList) :
    doc.schemaVersion = version := by
  have hv : readVersion version attrs = version := by
    clear hp
    induction attrs with
    | nil => rfl
    | cons a attrs ih =>
      have ha : isLocation a.1 = false := by
        unfold isLocation
        rw [Bool.eq_false_iff]
        exact fun h => hn a (by simp) (List.isSuffixOf_iff_suffix.1 h)
      rw [readVersion, ha]
      exact ih fun b hb => hn b (by simp [hb])
  simp only [readDoc, hp, readTree] at hr
  split at hr
  · cases hr
  · cases hr
    exact hv

/-- A file that names a schema file in another attribute. -/
def other : List Char :=
  "<?xml version=\"1.0\" encoding=\"utf-8\"?><AUTOSAR x=\"AUTOSAR_00048.xsd\"></AUTOSAR>".toList

example : ∃ tag attrs ds doc,
    Verif.Xml.Spec.parseDocument other = some (.elem tag attrs ds) ∧
    readDoc false 51 other = .ok doc ∧
    (∀ a ∈ attrs, ¬ "schemaLocation".toList <:+ a.1.toList) :=
  ⟨"AUTOSAR", [("x", "AUTOSAR_00048.xsd")], [], ⟨51, []⟩, by rfl, by rfl, by decide +kernel⟩

/-- C47: the schema file named in a document has at least five digits, exactly five for versions
below 100000, and they are the decimal digits of the version. -/
theorem C47_schema_file (version : Nat) : ∃ ds : List Char,
    schemaFile version = String.ofList ("AUTOSAR_".toList ++ ds ++ ".xsd".toList) ∧
    (∀ c ∈ ds, c.isDigit = true) ∧ 5 ≤ ds.length ∧ (version < 100000 → ds.length = 5) ∧
    ds.foldl (fun n c => 10 * n + (c.toNat - 48)) 0 = version := by
  refine ⟨pad5 version, rfl, pad5_digits version, ?_, ?_, ?_⟩
  · simp only [pad5, List.length_append, List.length_replicate]
    omega
  · intro h
    have hl : (decStr version).length ≤ 5 := by
      rw [decStr, List.length_map]
      exact digs_length 4 version h
    simp only [pad5, List.length_append, List.length_replicate]
    omega
  · have := pad5_value version
    rwa [ofDigs, List.foldl_map] at this

example : schemaFile 51 = "AUTOSAR_00051.xsd" := by decide +kernel

end Verif.Props.CodecPackage
