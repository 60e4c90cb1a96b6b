import Verif.Codec.RelabelProof
import Verif.Props.CodecBehavior
/-
C45, C22 with the names that constructors of runnables give.  C12: they may be others after reading.
-/
namespace Verif.Props.CodecRename
open Verif.Py Verif.Names Verif.Codec Verif.Codec.Spec Verif.Codec.Rename Verif.Codec.RenameSpec
  Verif.Codec.RelabelSpec Verif.Codec.Relabel

/-- C45: also the names of access points come back, whatever the constructor of the runnable does
to them, if no two of a kind are the same. -/
theorem C45_names (D : Digits) : ∀ x ∈ CodecBehavior.forms, ∀ v, WellFormed x.1 v → OwnNames v →
    ∃ text v', writeStrElem x.2.1 v = .ok text ∧ readNamed D x.2.2 text = some (.ok v') ∧
      Same (kept CodecBehavior.lost CodecBehavior.first v) v' ∧
      (noWhole v = true → v' = kept CodecBehavior.lost CodecBehavior.first v) := by
  intro x hx v h ho
  obtain ⟨text, v', h1, h2, h3, h4⟩ := CodecBehavior.C45_survives x hx v h
  have ht : topOk x.1 x.2.1 x.2.2 = true :=
    (by decide +kernel : ∀ x ∈ CodecBehavior.forms, topOk x.1 x.2.1 x.2.2 = true) x hx
  obtain ⟨text', h5, h6⟩ := elem_rt ht h
  have he : text = text' := by rw [h1] at h5; injection h5
  subst he
  have hv : v' = normVal tables false v := by rw [h2] at h6; injection h6
  refine ⟨text, v', h1, ?_, h3, h4⟩
  rw [hv] at h2 ⊢
  simp only [readNamed, h2, settle_own D _ (own_norm false ho), Option.map_some]

/-- C22: and in whole documents. -/
theorem C22_names (D : Digits) (skip stop : Bool) (version : Nat) (doc : Document)
    (h : WellFormedDoc doc) (ho : OwnNamesPkgs doc.packages) :
    ∃ text doc', writeDoc skip doc = .ok text ∧
      readNamedDoc D stop version text = some (.ok doc') ∧
      outlines doc'.packages = outlines doc.packages ∧
      SamePkgs (remainsPkgs doc.packages) doc'.packages ∧
      (noWholePkgs doc.packages = true → doc'.packages = remainsPkgs doc.packages) := by
  obtain ⟨h1, h2, h3⟩ := h
  obtain ⟨hl, hd⟩ := looseAll_of _ h2
  obtain ⟨text, w, r, -⟩ := doc_rt skip stop version (doc := doc) ⟨h1, hl, h3⟩
  have r := r (.inr hd)
  rw [firstsAll_distinct _ hd] at r
  refine ⟨text, ⟨if skip then version else doc.schemaVersion, normPkgs doc.packages⟩, w, ?_,
    outlines_norm _, same_pkgs _, whole_pkgs _⟩
  simp only [readNamedDoc, r, settlePkgs_own D _ ho, Option.map_some]

/-- C45: if access points have the same name, nothing but their names differs in what is read: the name
of each is followed by "_0" any number of times, the last of each kind has its name, and the one before
it has another. -/
theorem C45_renamed (D : Digits) : ∀ x ∈ CodecBehavior.forms, ∀ v, WellFormed x.1 v → PlainNames v →
    ∃ text v' v'', writeStrElem x.2.1 v = .ok text ∧ readNamed D x.2.2 text = some (.ok v'') ∧
      Same (kept CodecBehavior.lost CodecBehavior.first v) v' ∧ Renamed v' v'' ∧ LastTwo v'' := by
  intro x hx v h ho
  obtain ⟨text, v', h1, h2, h3, h4⟩ := CodecBehavior.C45_survives x hx v h
  have ht : topOk x.1 x.2.1 x.2.2 = true :=
    (by decide +kernel : ∀ x ∈ CodecBehavior.forms, topOk x.1 x.2.1 x.2.2 = true) x hx
  obtain ⟨text', h5, h6⟩ := elem_rt ht h
  have he : text = text' := by rw [h1] at h5; injection h5
  subst he
  have hv : v' = normVal tables false v := by rw [h2] at h6; injection h6
  obtain ⟨v'', h7, ⟨h8, h9, -⟩, -⟩ := settle_spec D _ (plain_norm false ho)
  rw [← hv] at h7 h8
  refine ⟨text, v', v'', h1, ?_, h3, h8, h9⟩
  simp only [readNamed, h2, h7, Option.map_some]

/-- C22: and in whole documents. -/
theorem C22_renamed (D : Digits) (skip stop : Bool) (version : Nat) (doc : Document)
    (h : WellFormedDoc doc) (ho : EachElements PlainNames doc.packages) :
    ∃ text ps doc', writeDoc skip doc = .ok text ∧
      readNamedDoc D stop version text = some (.ok doc') ∧
      SamePkgs (remainsPkgs doc.packages) ps ∧ RenamedPkgs ps doc'.packages ∧
      EachElements LastTwo doc'.packages := by
  obtain ⟨h1, h2, h3⟩ := h
  obtain ⟨hl, hd⟩ := looseAll_of _ h2
  obtain ⟨text, w, r, -⟩ := doc_rt skip stop version (doc := doc) ⟨h1, hl, h3⟩
  have r := r (.inr hd)
  rw [firstsAll_distinct _ hd] at r
  obtain ⟨qs, e1, e2, e3⟩ := settlePkgs_spec D doc.packages ho
  refine ⟨text, normPkgs doc.packages, ⟨if skip then version else doc.schemaVersion, qs⟩, w, ?_,
    same_pkgs _, e2, e3⟩
  simp only [readNamedDoc, r, e1, Option.map_some]

/-- A runnable with accesses of these names. -/
def runnable (names : List String) : Val Cls :=
  .obj .RunnableEntity [("name", .str "Run"),
    ("data_read_access", .list (names.map fun n => .obj .VariableAccess [("name", .str n)]))]

/-- Two different names in one list, and one of them again in another. -/
example : OwnNames (.obj .RunnableEntity [("name", .str "Run"),
    ("data_read_access", .list [.obj .VariableAccess [("name", .str "A")],
      .obj .VariableAccess [("name", .str "B")]]),
    ("data_send_point", .list [.obj .VariableAccess [("name", .str "A")]])]) := by
  intro fs hi k hk vs hm
  cases hi with
  | here =>
    simp only [List.mem_cons, Prod.mk.injEq, Val.list.injEq, List.not_mem_nil, or_false,
      reduceCtorEq, and_false, false_or] at hm
    rcases hm with ⟨-, rfl⟩ | ⟨-, rfl⟩
    · exact ⟨by decide, by decide⟩
    · exact ⟨by decide, by decide⟩
  | obj hm' hi =>
    simp only [List.mem_cons, Prod.mk.injEq, List.not_mem_nil, or_false] at hm'
    rcases hm' with ⟨-, rfl⟩ | ⟨-, rfl⟩ | ⟨-, rfl⟩
    · cases hi
    · cases hi with
      | list h1 h2 =>
        simp only [List.mem_cons, List.not_mem_nil, or_false] at h1
        rcases h1 with rfl | rfl <;> cases h2 with
        | obj h3 h4 =>
          simp only [List.mem_cons, Prod.mk.injEq, List.not_mem_nil, or_false] at h3
          obtain ⟨-, rfl⟩ := h3
          cases h4
    · cases hi with
      | list h1 h2 =>
        simp only [List.mem_cons, List.not_mem_nil, or_false] at h1
        subst h1
        cases h2 with
        | obj h3 h4 =>
          simp only [List.mem_cons, Prod.mk.injEq, List.not_mem_nil, or_false] at h3
          obtain ⟨-, rfl⟩ := h3
          cases h4

theorem plain_leaf {v : Val Cls} (h1 : ∀ vs, v ≠ .list vs) (h2 : ∀ c fs, v ≠ .obj c fs) :
    PlainNames v := by
  intro fs hi
  cases hi with
  | here => exact absurd rfl (h2 _ _)
  | list => exact absurd rfl (h1 _)
  | obj => exact absurd rfl (h2 _ _)

theorem plain_in {c : Cls} {fs : List (String × Val Cls)} (hc : c ≠ .RunnableEntity)
    (h : ∀ kv ∈ fs, PlainNames kv.2) : PlainNames (.obj c fs) := by
  intro gs hi
  cases hi with
  | here => exact absurd rfl hc
  | obj hm hi => exact h _ hm gs hi

theorem plain_all {vs : List (Val Cls)} (h : ∀ v ∈ vs, PlainNames v) : PlainNames (.list vs) := by
  intro gs hi
  cases hi with
  | list hm hi => exact h _ hm gs hi

theorem plain_runnable (names : List String) (h : ∀ n ∈ names, n.toList ≠ [] ∧ Plain n.toList) :
    PlainNames (runnable names) := by
  intro gs hi
  cases hi with
  | here =>
    intro k hk vs hm x hx
    simp only [List.mem_cons, Prod.mk.injEq, Val.list.injEq, List.not_mem_nil, or_false,
      reduceCtorEq, and_false, false_or] at hm
    obtain ⟨-, rfl⟩ := hm
    obtain ⟨n, hn, rfl⟩ := List.mem_map.1 hx
    exact h n hn
  | obj hm hi =>
    simp only [List.mem_cons, Prod.mk.injEq, List.not_mem_nil, or_false] at hm
    rcases hm with ⟨-, rfl⟩ | ⟨-, rfl⟩
    · exact plain_leaf (by simp) (by simp) gs hi
    · refine plain_all ?_ gs hi
      intro v hv
      obtain ⟨n, hn, rfl⟩ := List.mem_map.1 hv
      refine plain_in (by decide) ?_
      simp only [List.mem_singleton]
      rintro kv rfl
      exact plain_leaf (by simp) (by simp)

/-- A component whose runnable has three accesses of two names. -/
def component : Val Cls :=
  .obj .ApplicationSoftwareComponentType [("name", .str "Swc"),
    ("internal_behavior", .obj .SwcInternalBehavior [("name", .str "Behavior"),
      ("runnables", .list [runnable ["A", "B", "A"]])])]

/-- Two accesses of one name, in a runnable and in a document. -/
example : PlainNames (runnable ["A", "B", "A"]) ∧ EachElements PlainNames [.mk [("name", .str "P")] [component] []] := by
  have h1 := plain_runnable ["A", "B", "A"] (by decide +kernel)
  refine ⟨h1, ⟨?_, trivial⟩, trivial⟩
  simp only [List.mem_singleton]
  rintro v rfl
  refine plain_in (by decide) ?_
  simp only [List.mem_cons, List.not_mem_nil, or_false]
  rintro kv (rfl | rfl)
  · exact plain_leaf (by simp) (by simp)
  · refine plain_in (by decide) ?_
    simp only [List.mem_cons, List.not_mem_nil, or_false]
    rintro kv (rfl | rfl)
    · exact plain_leaf (by simp) (by simp)
    · refine plain_all ?_
      simp only [List.mem_singleton]
      rintro v rfl
      exact h1

/-- Such an object can be written; after reading, the first access is called "A_0". -/
example : WellFormed .ApplicationSoftwareComponentType component ∧
    settle asciiDigits (runnable ["A", "B", "A"]) = some (runnable ["A_0", "B", "A"]) :=
  ⟨by decide +kernel, by with_unfolding_all rfl⟩

/-- Finding for C12: a runnable to which three accesses of the same name were added has two called
"A_0"; when it is written and read, one of them is called "A_0_0". -/
theorem C12_reload_counterexample :
    settle asciiDigits (runnable ["A", "A", "A"]) = some (runnable ["A_0", "A_0", "A"]) ∧
    ∃ text, writeStrElem none (runnable ["A_0", "A_0", "A"]) = .ok text ∧
      readNamed asciiDigits none text = some (.ok (runnable ["A_0_0", "A_0", "A"])) := by
  refine ⟨by with_unfolding_all rfl, ?_⟩
  obtain ⟨text, h1, h2⟩ := elem_rt (by decide +kernel : topOk .RunnableEntity none none = true)
    (by decide +kernel : WellFormed .RunnableEntity (runnable ["A_0", "A_0", "A"]))
  refine ⟨text, h1, ?_⟩
  simp only [readNamed, h2]
  with_unfolding_all rfl

end Verif.Props.CodecRename
