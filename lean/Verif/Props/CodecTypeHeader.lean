import Verif.Codec.TypeHeaderTypes
import Verif.Codec.OlderProof
import Verif.Props.ImplHeader
/-
C66: the implementation model and the type header of packages that have been saved and loaded.
-/
set_option linter.unusedSimpArgs false
namespace Verif.Props.CodecTypeHeader
open Verif.Py Verif.Impl Verif.Impl.Spec Verif.Codec Verif.Codec.Spec Verif.Codec.Older Verif.Codec.TypeHeader
open Verif.Codec.FindSpec Verif.Codec.Older.Spec Verif.Codec.TypeHeaderSpec

/-- C66: from the document read, the same type header is generated as from the document written,
whatever types are asked for, down to the last line; and when there was no header because of an
exception, it is the same exception.  The same holds for every request to an implementation model: it
changes the model in the same way and returns the same element or raises the same exception. -/
theorem C66_reload (skip stop : Bool) (version : Nat) (doc : Document)
    (h : WellFormedPkgs doc.packages) (hn : (doc.packages.map Pkg.name).Nodup)
    (ha : doc.schemaVersion < 50 → areasNamedPkgs doc.packages = true)
    (hv : skip = true → SameSide version doc.schemaVersion) :
    ∃ text doc', Older.writeDoc skip doc = .ok text ∧ Older.readDoc stop version text = .ok doc' ∧
      (∀ limit refs, header limit doc'.packages refs = header limit doc.packages refs) ∧
      (∀ limit st r isSource, createFromRef limit (envOf doc'.packages) st r isSource =
        createFromRef limit (envOf doc.packages) st r isSource) := by
  obtain ⟨text, h1, h2⟩ := Older.doc_rt skip stop version doc h hn ha hv
  refine ⟨text, _, h1, h2, ?_, ?_⟩
  · intro limit refs
    simp only [header, env_norm]
  · intro limit st r isSource
    simp only [env_norm]

/-- C66: a type in the packages is found by its reference, and nothing else is: every base type or
implementation data type that is found by some text, such as one with slashes too many, is an element
with a way of names to it, whose reference leads back to it.  So the hypothesis of C31, C32 and C56
about workspaces holds for all packages. -/
theorem C66_references (ps : List Pkg) (h : WellFormedPkgs ps) (hn : (ps.map Pkg.name).Nodup) :
    EnvOk (envOf ps) ∧
    (∀ way v, ElementAt ps way v → (∀ n ∈ way, Pkg.Spec.GoodName n) → ∀ x,
      typeOf (Pkg.Spec.absRef way) v = .ok x → envOf ps (Pkg.Spec.absRef way) = some x) ∧
    (∀ r x, envOf ps r = some x → ¬ NoType x → ∃ way v, ElementAt ps way v ∧
      typeOf (Pkg.Spec.absRef way) v = .ok x ∧ x.ref = Pkg.Spec.absRef way) := by
  refine ⟨env_ok h hn, ?_, ?_⟩
  · intro way v hv hg x hx
    refine of_get (y := .element way v) ?_ hx
    have := locate_element hv h hn [] hg
    rw [List.append_nil] at this
    rw [this]
    rfl
  · intro r x hx hno
    obtain ⟨y, hl, hf⟩ := get_of hx
    have ht : There ps [] y := locatePkgs_there [] ps _ y h (by
      simpa using not_mem_partL_fst '/' (stripLead '/' r.toList)) hl
    cases y with
    | pkg way p => cases hf; exact absurd ⟨_, _, rfl⟩ hno
    | element way v =>
      obtain ⟨ns, e, ha, -⟩ := ht
      simp only [List.nil_append] at e
      subst e
      exact ⟨_, v, ha, hf, typeOf_ref hf⟩
    | part way v u => exact absurd (partOf_noType hf).1 hno

/-- The names of the definitions generated are those of types of the document, each once. -/
theorem decl_names {ps : List Pkg} (hw : WellFormedPkgs ps) (hn : (ps.map Pkg.name).Nodup)
    {outside : String → Bool} (hfit : DocFit ps outside) {limit : Nat} {history : List Req}
    (hh : ∀ p ∈ history, p.attached (envOf ps)) {decls : List Decl}
    (hd : genTypeDefs (run limit (envOf ps) .empty history) = .ok decls) :
    (decls.map Decl.name).Nodup ∧ ∀ d ∈ decls, outside (Decl.name d) = false := by
  have hok := env_ok hw hn
  obtain ⟨inv, _⟩ := run_spec hok limit history .empty (Inv.empty _) hh
  obtain ⟨order, ho, hlen, hdef⟩ := Props.Impl.C31_defined_before_use limit _ hok history hh decls hd
  obtain ⟨hnd, hin, -⟩ := Props.Impl.C31_each_once limit _ hok history hh order ho
  generalize hst : run limit (envOf ps) .empty history = st at *
  have key : ∀ (k : Nat) d, decls[k]? = some d → ∃ o obj way v, order[k]? = some o ∧
      st.objs[o]? = some obj ∧ obj.ref = Verif.Pkg.Spec.absRef way ∧ ElementAt ps way v ∧ (IsBase v ∨ IsImpl v) ∧
      ¬ Foreign v ∧ Says v "name" (Decl.name d) := by
    intro k d hk
    obtain ⟨⟨o, obj, h1, h2, h3⟩, -⟩ := hdef k d hk
    obtain ⟨-, obj', h2', hne⟩ := hin o (List.mem_of_getElem? h1)
    rw [h2] at h2'; cases h2'
    obtain ⟨x, hx, hxr, hdesc, -⟩ := inv.desc _ _ h2
    have hno : ¬ NoType x := by cases hdesc <;> first | exact not_noType_base | exact not_noType_impl
    obtain ⟨way, v, ha, ht, -, hr⟩ := env_type hw hx hno
    have hnf : ¬ Foreign v := fun hf =>
      not_elsewhere (doc_fit hw hfit).2 hx hdesc hne ((foreign_iff ht).2 hf)
    have hnm : Decl.name d = Owner.shortName v := by
      rw [h3, ← name_eq hdesc]; exact name_of_type ht hno
    exact ⟨o, obj, way, v, h1, h2, by rw [← hxr, hr], ha, type_kind ht hno, hnf,
      by rw [hnm]; exact elem_named ha⟩
  constructor
  · rw [List.nodup_iff_pairwise_ne, List.pairwise_map, List.pairwise_iff_getElem]
    intro i j hi hj hij he
    obtain ⟨o, obj, way, v, h1, h2, h3, h4, h5, h6, h7⟩ := key i _ (List.getElem?_eq_getElem hi)
    obtain ⟨o', obj', way', v', g1, g2, g3, g4, g5, g6, g7⟩ := key j _ (List.getElem?_eq_getElem hj)
    have hway := hfit.different h4 g4 h5 g5 h6 g6 h7 (he ▸ g7)
    have hr : obj.ref = obj'.ref := by rw [h3, g3, hway]
    have e1 := inv.all _ _ h2
    have e2 := inv.all _ _ g2
    rw [hr, e2] at e1
    cases e1
    have hil : i < order.length := by rw [hlen]; exact hi
    have := (List.getElem?_inj hil hnd).1 (h1.trans g1.symm)
    omega
  · intro d hd
    obtain ⟨k, hk⟩ := List.mem_iff_getElem?.1 hd
    obtain ⟨o, obj, way, v, -, -, -, h4, h5, h6, h7⟩ := key k d hk
    exact hfit.own h4 h5 h6 h7

/-- C56 for documents that have been saved and loaded: the header generated from the document read
compiles, and declares the types asked for with the C types they stand for in the document written,
and no others.  Partial as `C56_types_partial` (see `DocFit`); the types asked for are those recorded as
sources (types that were already there as parts of others are not). -/
theorem C56_documents_partial (skip stop : Bool) (version : Nat) (doc : Document)
    (h : WellFormedPkgs doc.packages) (hn : (doc.packages.map Pkg.name).Nodup)
    (ha : doc.schemaVersion < 50 → areasNamedPkgs doc.packages = true)
    (hv : skip = true → SameSide version doc.schemaVersion)
    (hnone : some "None" ∉ doc.packages.map Pkg.name) (outside : String → Bool)
    (hfit : DocFit doc.packages outside) (limit : Nat) (refs : List String) (ls : List CLine)
    (hh : header limit doc.packages refs = .ok ls) :
    ∃ text doc', Older.writeDoc skip doc = .ok text ∧ Older.readDoc stop version text = .ok doc' ∧
      ∃ ls' lines c, header limit doc'.packages refs = .ok ls' ∧
        preprocess ["__cplusplus"] [] ls' = some lines ∧ compile outside ⟨[], []⟩ lines = some c ∧
        (∀ n t, (n, t) ∈ c.names → ∃ way v, ElementAt doc.packages way v ∧ ¬ Foreign v ∧
          Says v "name" n ∧ DocType doc.packages v t) ∧
        (∀ r ∈ (run limit (envOf doc.packages) .empty (refs.map fun r => .byRef r true)).sources,
          ∃ way v, r = Verif.Pkg.Spec.absRef way ∧ ElementAt doc.packages way v ∧ (Foreign v ∨
            ∃ n t, Says v "name" n ∧ DocType doc.packages v t ∧ dictGet c.names n = some t)) := by
  obtain ⟨text, doc', h1, h2, h3, -⟩ := C66_reload skip stop version doc h hn ha hv
  have hhist : ∀ p ∈ (refs.map fun r => Req.byRef r true), p.attached (envOf doc.packages) := by
    intro p hp; obtain ⟨r, -, rfl⟩ := List.mem_map.1 hp; trivial
  obtain ⟨decls, hd⟩ : ∃ decls, genTypeDefs (run limit (envOf doc.packages) .empty
      (refs.map fun r => .byRef r true)) = .ok decls := by
    simp only [header, headerLines, typeDefLines] at hh
    cases hg : genTypeDefs (run limit (envOf doc.packages) .empty (refs.map fun r => .byRef r true)) with
    | error e => rw [hg] at hh; cases hh
    | ok ds => exact ⟨ds, rfl⟩
  obtain ⟨hcf, hown⟩ := doc_fit h hfit
  obtain ⟨hdiff, hout⟩ := decl_names h hn hfit hhist hd
  obtain ⟨lines, c, g1, g2, g3, g4, -⟩ := ImplHeader.C56_types_partial limit (envOf doc.packages)
    (env_ok h hn) (env_none hnone) _ hhist outside hcf hown decls hd hdiff hout
  obtain ⟨p1, p2⟩ := (ImplHeader.C56_include g1 hh).2 ["__cplusplus"] (by decide) (by decide)
  refine ⟨text, doc', h1, h2, ls, _, c, by rw [h3, hh], p1, by rw [p2, g2], ?_, ?_⟩
  · intro n t hnt
    obtain ⟨x, hx, hne, rfl, ht⟩ := g4 n t hnt
    obtain ⟨way, v, hat, hty, -, -⟩ := env_type h hx (ctype_type ht)
    refine ⟨way, v, hat, fun hf => hne ((foreign_iff hty).2 hf), ?_, doc_type h hfit ht way v hat hty⟩
    rw [name_of_type hty (ctype_type ht)]
    exact elem_named hat
  · intro r hr
    obtain ⟨x, hx, hxr, hcase⟩ := g3 r hr
    have hno : ¬ NoType x := by
      rcases hcase with he | ⟨t, ht, -⟩
      · exact ctype_type (env := envOf doc.packages) (.elsewhere he)
      · exact ctype_type ht
    obtain ⟨way, v, hat, hty, -, hrw⟩ := env_type h hx hno
    refine ⟨way, v, by rw [← hxr, hrw], hat, ?_⟩
    rcases hcase with he | ⟨t, ht, hg⟩
    · exact .inl ((foreign_iff hty).1 he)
    · rw [name_of_type hty hno] at hg
      exact .inr ⟨_, t, elem_named hat, doc_type h hfit ht way v hat hty, hg⟩

/-! ### Example -/

/-- Properties with one reference. -/
def one (a c r d : String) : Val Cls :=
  .obj .SwDataDefProps [("variants", .list [.obj .SwDataDefPropsConditional [(a, .ref ⟨c, r, d⟩)]])]

def u16 : Val Cls :=
  .obj .SwBaseType [("name", .str "u16"), ("native_declaration", .str "unsigned short")]

def speed : Val Cls :=
  .obj .ImplementationDataType [("name", .str "Speed"), ("category", .str "VALUE"), ("uuid", .str "8f1c"),
    ("sw_data_def_props", one "base_type_ref" "SwBaseTypeRef" "/Types/Base/u16" "SW_BASE_TYPE")]

def pair : Val Cls :=
  .obj .ImplementationDataType [("name", .str "Pair"), ("category", .str "STRUCTURE"),
    ("sub_elements", .list
      [.obj .ImplementationDataTypeElement [("name", .str "a"), ("category", .str "TYPE_REFERENCE"),
         ("sw_data_def_props", one "impl_data_type_ref" "ImplementationDataTypeRef" "/Types/Speed"
           "IMPLEMENTATION_DATA_TYPE")],
       .obj .ImplementationDataTypeElement [("name", .str "b"), ("category", .str "VALUE"),
         ("sw_data_def_props", one "base_type_ref" "SwBaseTypeRef" "/Types/Base/u16" "SW_BASE_TYPE")]])]

/-- A base type, a type whose UUID is lost (C23) and a structure, in two packages. -/
def sample : Document where
  schemaVersion := 49
  packages := [.mk [("name", .str "Types")] [speed, pair] [.mk [("name", .str "Base")] [u16] []]]

theorem sample_ok : WellFormedPkgs sample.packages ∧ (sample.packages.map Pkg.name).Nodup ∧
    areasNamedPkgs sample.packages = true ∧ some "None" ∉ sample.packages.map Pkg.name := by
  refine ⟨⟨⟨by decide +kernel, ?_, by decide +kernel, ⟨by decide +kernel, ?_,
    by decide +kernel, trivial⟩, trivial⟩, trivial⟩, by decide +kernel, by decide +kernel,
    by decide +kernel⟩
  · simp only [List.mem_cons, List.not_mem_nil, or_false]
    rintro v (rfl | rfl)
    · exact ⟨.ImplementationDataType, by decide +kernel, by decide +kernel⟩
    · exact ⟨.ImplementationDataType, by decide +kernel, by decide +kernel⟩
  · simp only [List.mem_singleton]
    rintro v rfl
    exact ⟨.SwBaseType, by decide +kernel, by decide +kernel⟩

def sampleSt : State := run 9 (envOf sample.packages) .empty [.byRef "/Types/Pair" true]

theorem sample_defs : genTypeDefs sampleSt = .ok
    [.typedef "u16" (.native "unsigned short"), .typedef "Speed" (.named 0),
     .structTypedef "Pair" [("a", .named 1), ("b", .native "unsigned short")]] := by
  have : genTrees sampleSt = .ok [.node 2 [.node 1 [.node 0 []]]] := by rfl
  have : genOrder sampleSt = .ok [0, 1, 2] := by
    simp only [genOrder, this, creationOrder, List.map, bfs, Tree.children, List.reverse_cons,
      List.reverse_nil, List.nil_append, List.append_nil, List.singleton_append, List.cons_append,
      Tree.data]
    decide +kernel
  simp only [genTypeDefs, this]
  decide +kernel

/-- There is a header for it. -/
example : ∃ ls, header 9 sample.packages ["/Types/Pair"] = .ok ls := by
  have h : header 9 sample.packages ["/Types/Pair"] = headerLines sampleSt := rfl
  rw [h, headerLines, typeDefLines, sample_defs]
  exact ⟨_, rfl⟩

theorem sample_elements {way : List String} {v : Val Cls} (h : ElementAt sample.packages way v) :
    (way = ["Types", "Speed"] ∧ v = speed) ∨ (way = ["Types", "Pair"] ∧ v = pair) ∨
      (way = ["Types", "Base", "u16"] ∧ v = u16) := by
  cases h with
  | mk hp hv hm =>
    have inner : ∀ {q way}, PackageAt [Pkg.mk [("name", .str "Base")] [u16] []] way q →
        way = ["Base"] ∧ q = Pkg.mk [("name", .str "Base")] [u16] [] := by
      intro q way h
      cases h with
      | here h1 h2 => simp only [List.mem_singleton] at h1; subst h1; cases h2; exact ⟨rfl, rfl⟩
      | inside h1 h2 h3 =>
        simp only [List.mem_singleton] at h1; subst h1; cases h3 <;> simp [Pkg.packages] at *
    cases hp with
    | here h1 h2 =>
      simp only [sample, List.mem_singleton] at h1
      subst h1
      cases h2
      simp only [Pkg.elements, List.mem_cons, List.not_mem_nil, or_false] at hv
      rcases hv with rfl | rfl
      · cases hm; exact .inl ⟨rfl, rfl⟩
      · cases hm; exact .inr (.inl ⟨rfl, rfl⟩)
    | inside h1 h2 h3 =>
      simp only [sample, List.mem_singleton] at h1
      subst h1
      cases h2
      obtain ⟨rfl, rfl⟩ := inner h3
      simp only [Pkg.elements, List.mem_singleton] at hv
      subst hv
      cases hm
      exact .inr (.inr ⟨rfl, rfl⟩)

theorem says_iff {v : Val Cls} {a s t : String} (h : field v a = some (.str s)) : Says v a t ↔ t = s := by
  rw [Says, h]; simp [eq_comm]

theorem sample_own : ¬ Foreign speed ∧ ¬ Foreign pair ∧ ¬ Foreign u16 := by
  refine ⟨?_, ?_, ?_⟩
  · rintro (⟨⟨_, h⟩, -⟩ | ⟨-, e, h, -⟩)
    · cases h
    · cases h
  · rintro (⟨⟨_, h⟩, -⟩ | ⟨-, e, h, -⟩)
    · cases h
    · cases h
  · rintro (⟨-, h⟩ | ⟨⟨_, h⟩, -⟩)
    · exact absurd (h "unsigned short" rfl) (by decide)
    · cases h

/-- The hypotheses of `C56_documents_partial` hold for it. -/
example : DocFit sample.packages (· == "unsigned short") := by
  obtain ⟨o1, o2, o3⟩ := sample_own
  have n1 : ∀ {t}, Says speed "name" t ↔ t = "Speed" := says_iff rfl
  have n2 : ∀ {t}, Says pair "name" t ↔ t = "Pair" := says_iff rfl
  have n3 : ∀ {t}, Says u16 "name" t ↔ t = "u16" := says_iff rfl
  have c1 : ∀ {t}, Says speed "category" t ↔ t = "VALUE" := says_iff rfl
  have c2 : ∀ {t}, Says pair "category" t ↔ t = "STRUCTURE" := says_iff rfl
  have i3 : ¬ IsImpl u16 := by rintro ⟨_, h⟩; cases h
  have b1 : ¬ IsBase speed := by rintro ⟨_, h⟩; cases h
  have b2 : ¬ IsBase pair := by rintro ⟨_, h⟩; cases h
  refine ⟨?_, ?_, ?_, ?_, ?_, ?_, ?_⟩
  · intro way v s h hi hc
    rcases sample_elements h with ⟨-, rfl⟩ | ⟨-, rfl⟩ | ⟨-, rfl⟩
    · exact absurd (c1.1 hc) (by decide)
    · exact absurd (c2.1 hc) (by decide)
    · exact absurd hi i3
  · intro way v l h hi hc hp
    rcases sample_elements h with ⟨-, rfl⟩ | ⟨-, rfl⟩ | ⟨-, rfl⟩
    · exact absurd (c1.1 hc) (by decide)
    · rcases hp with hp | ⟨hp, -⟩
      · cases hp
        refine ⟨by simp, ?_⟩
        simp only [List.pairwise_cons, List.mem_singleton, forall_eq, List.not_mem_nil, false_implies,
          implies_true, List.Pairwise.nil, and_true]
        rintro n ⟨h1, h2⟩
        cases h1
        simp [Says, field, List.lookup] at h2
      · exact absurd rfl (hp _)
    · exact absurd hi i3
  · intro way v s h hb hs hne
    rcases sample_elements h with ⟨-, rfl⟩ | ⟨-, rfl⟩ | ⟨-, rfl⟩
    · exact absurd hb b1
    · exact absurd hb b2
    · cases hs; rfl
  · intro way v n h hf
    rcases sample_elements h with ⟨-, rfl⟩ | ⟨-, rfl⟩ | ⟨-, rfl⟩
    · exact absurd hf o1
    · exact absurd hf o2
    · exact absurd hf o3
  · intro way v n h _ _ hn
    rcases sample_elements h with ⟨-, rfl⟩ | ⟨-, rfl⟩ | ⟨-, rfl⟩
    · rw [n1.1 hn]; decide
    · rw [n2.1 hn]; decide
    · rw [n3.1 hn]; decide
  · intro way v way' v' n h h' _ _ _ _ hn hn'
    rcases sample_elements h with ⟨rfl, rfl⟩ | ⟨rfl, rfl⟩ | ⟨rfl, rfl⟩ <;>
      rcases sample_elements h' with ⟨rfl, rfl⟩ | ⟨rfl, rfl⟩ | ⟨rfl, rfl⟩ <;>
      simp only [n1, n2, n3] at hn hn' <;> first | rfl | (rw [hn] at hn'; exact absurd hn' (by decide))
  · intro way v h hi hc
    rcases sample_elements h with ⟨-, rfl⟩ | ⟨-, rfl⟩ | ⟨-, rfl⟩
    · exact o1
    · exact o2
    · exact o3

/-- The structure is a structure of two numbers. -/
example : DocType sample.packages pair (.struct "Rte_struct_Pair"
    [("a", .outside "unsigned short"), ("b", .outside "unsigned short")]) := by
  obtain ⟨o1, o2, o3⟩ := sample_own
  have hu : DocType sample.packages u16 (.outside "unsigned short") := .base ⟨_, rfl⟩ rfl (by decide)
  refine .struct (n := "Pair") ⟨_, rfl⟩ o2 rfl rfl (.inl rfl) (.cons rfl ?_ (.cons rfl ?_ .nil))
  · refine .typeRef (r := "/Types/Speed") (y := speed) rfl ⟨_, _, _, _, rfl, rfl, rfl, rfl⟩ rfl ?_
    exact .value (r := "/Types/Base/u16") (y := u16) ⟨_, rfl⟩ o1 rfl ⟨_, _, _, _, rfl, rfl, rfl, rfl⟩ rfl hu
  · exact .value (r := "/Types/Base/u16") (y := u16) rfl ⟨_, _, _, _, rfl, rfl, rfl, rfl⟩ rfl hu

/-- Texts with slashes too many find the same type, of which the reference is the usual one; sub-elements
are found, but have none. -/
example : envOf sample.packages "Types//Base/u16" =
      some (.base "/Types/Base/u16" "u16" (some "unsigned short")) ∧
    envOf sample.packages "/Types/Pair/a" = some (.other "None" "") := by
  exact ⟨by decide +kernel, by decide +kernel⟩

end Verif.Props.CodecTypeHeader
