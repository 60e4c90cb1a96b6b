import Verif.Work.PathLemmas
/-
C28: package roles and namespaces (workspace.py 57-118).
-/
set_option linter.unusedSimpArgs false
namespace Verif.Props.WorkPath
open Verif.Py Verif.Work Verif.Work.Spec Verif.Pkg.Spec

/-- Starts with exactly one slash. -/
def OneSlash (s : String) : Prop := ∃ rest, s.toList = '/' :: rest ∧ rest.head? ≠ some '/'

/-- The text of a place in the tree. -/
def placeRef (l : List String) : String := if l = [] then "/" else absRef l

/-- The last entry of a package map that defines `role`. -/
def LastEntry (pm : List (String × String)) (role : Role) (rel : String) : Prop :=
  ∃ pre rn post, pm = pre ++ (rn, rel) :: post ∧ parseRole rn = .ok role ∧
    ∀ e ∈ post, parseRole e.1 ≠ .ok role

theorem oneSlash_initial {p : List Char} {rest : List Char} (h : p = '/' :: rest)
    (hr : rest.head? ≠ some '/') : initialSlashes p = 1 := by
  subst h
  unfold initialSlashes
  split
  · rename_i heq; simp at heq; subst heq; simp at hr
  · rename_i heq; simp at heq; subst heq; simp at hr
  · rfl
  · rename_i h1 h2 h3; exact absurd rfl (h3 rest)

/-- C28: for a namespace whose base reference starts with one slash (as the default "/name"
does), the package reference of a role is the absolute reference of the place one gets to by
walking from the root down the base reference and then the role's relative path, following "."
and ".." and ignoring empty segments. -/
theorem C28_role_reference (nss : Dict Namespace) (name : String) (pm : List (String × String))
    (base : Option String) (nss' : Dict Namespace)
    (hc : createNamespace nss name pm base = (nss', .ok ()))
    (hbase : OneSlash (base.getD ("/" ++ name)))
    (role : Role) (rel : String) (hrel : startsWithL '/' rel.toList = false)
    (hlast : LastEntry pm role rel) :
    ∃ place, Walk [] (segments (base.getD ("/" ++ name)) ++ segments rel) place ∧
      (∀ n ∈ place, GoodName n) ∧
      packageRefByRole nss' name role = .ok (placeRef place) := by
  unfold createNamespace makeNamespace at hc
  simp only at hc
  generalize hb : base.getD ("/" ++ name) = b at hc hbase ⊢
  cases hf : fillMap b pm [] with
  | error e => simp [hf] at hc
  | ok m =>
    simp only [hf, Prod.mk.injEq, and_true] at hc
    subst hc
    obtain ⟨pre, rn, post, h1, h2, h3⟩ := hlast
    have hget := (fillMap_get hf role).1 rn rel pre post h1 h2 h3
    obtain ⟨rest, hrest, hhead⟩ := hbase
    have hbne : b.toList ≠ [] := by rw [hrest]; simp
    -- the joined path starts with one slash
    have hj : ∃ rest', pjoin b.toList rel.toList = '/' :: rest' ∧ rest'.head? ≠ some '/' := by
      unfold pjoin
      simp only [hrel, Bool.false_eq_true, if_false, hbne, false_or, hrest]
      split
      · refine ⟨rest ++ rel.toList, rfl, ?_⟩
        cases rest with
        | nil =>
          simp only [List.nil_append]
          cases hq : rel.toList with
          | nil => simp
          | cons c cs =>
            rw [hq] at hrel
            simp only [startsWithL, decide_eq_false_iff_not] at hrel
            simpa using hrel
        | cons c cs => simpa using hhead
      · rename_i hl
        refine ⟨rest ++ '/' :: rel.toList, rfl, ?_⟩
        cases rest with
        | nil => simp at hl
        | cons c cs => simpa using hhead
    obtain ⟨rest', hj1, hj2⟩ := hj
    have hjj : pjoin b.toList (pjoin b.toList rel.toList) = pjoin b.toList rel.toList := by
      rw [hj1]
      simp [pjoin, startsWithL]
    have hw := walk_foldl (n := 1) (by decide) (segments b ++ segments rel) [] (by simp) (by
      intro s hs
      rcases List.mem_append.mp hs with h | h
      · exact not_mem_splitL '/' _ s h
      · exact not_mem_splitL '/' _ s h)
    refine ⟨_, hw.1, loc_good hw.2, ?_⟩
    unfold packageRefByRole
    simp only [dictGet_set, if_true, hget, String.toList_ofList]
    rw [hjj, normpath_abs _ (oneSlash_initial hj1 hj2), foldl_pjoin 1 _ _ hbne hrel]
    rfl

/-- C28: an absolute path in the package map does not get the base reference put in front: it is
used by itself. -/
theorem C28_absolute_path (nss : Dict Namespace) (name : String) (pm : List (String × String))
    (base : Option String) (nss' : Dict Namespace)
    (hc : createNamespace nss name pm base = (nss', .ok ()))
    (role : Role) (rel : String) (hrel : OneSlash rel) (hlast : LastEntry pm role rel) :
    ∃ place, Walk [] (segments rel) place ∧ (∀ n ∈ place, GoodName n) ∧
      packageRefByRole nss' name role = .ok (placeRef place) := by
  unfold createNamespace makeNamespace at hc
  simp only at hc
  generalize hb : base.getD ("/" ++ name) = b at hc ⊢
  cases hf : fillMap b pm [] with
  | error e => simp [hf] at hc
  | ok m =>
    simp only [hf, Prod.mk.injEq, and_true] at hc
    subst hc
    obtain ⟨pre, rn, post, h1, h2, h3⟩ := hlast
    have hget := (fillMap_get hf role).1 rn rel pre post h1 h2 h3
    obtain ⟨rest, hrest, hhead⟩ := hrel
    have hj : ∀ x, pjoin x rel.toList = rel.toList := by
      intro x; unfold pjoin; rw [if_pos (by rw [hrest]; rfl)]
    have hw := walk_foldl (n := 1) (by decide) (segments rel) [] (by simp)
      (fun s h => not_mem_splitL '/' _ s h)
    refine ⟨_, hw.1, loc_good hw.2, ?_⟩
    unfold packageRefByRole
    simp only [dictGet_set, if_true, hget, String.toList_ofList, hj]
    rw [normpath_abs _ (oneSlash_initial hrest hhead)]
    rfl

/-- C28: walking is deterministic, so the reference is determined. -/
theorem C28_place_unique (segs : List (List Char)) (p q : List String) (h : Walk [] segs p)
    (g : Walk [] segs q) : p = q := walk_unique h g

/-- C28: creating a namespace fails exactly when a role name is neither known nor marked as
user-defined ("!..."), with KeyError and without adding the namespace; an unknown namespace gives
KeyError, a role the namespace does not define gives ValueError; other namespaces are
untouched. -/
theorem C28_errors (nss : Dict Namespace) (name : String) (pm : List (String × String))
    (base : Option String) :
    ((∃ e ∈ pm, parseRole e.1 = .error .keyError) →
      createNamespace nss name pm base = (nss, .error .keyError)) ∧
    ((∀ e ∈ pm, ∃ r, parseRole e.1 = .ok r) →
      (createNamespace nss name pm base).2 = .ok () ∧
      ∀ role, (∀ e ∈ pm, parseRole e.1 ≠ .ok role) →
        packageRefByRole (createNamespace nss name pm base).1 name role = .error .valueError) ∧
    (∀ other role, other ≠ name →
      packageRefByRole (createNamespace nss name pm base).1 other role
        = packageRefByRole nss other role) ∧
    (∀ role, dictGet nss name = none → packageRefByRole nss name role = .error .keyError) := by
  have hout := fillMap_outcome (base.getD ("/" ++ name)) pm []
  refine ⟨?_, ?_, ?_, ?_⟩
  · rintro ⟨e, he, hk⟩
    rcases hout with ⟨_, g⟩ | ⟨h, _⟩
    · obtain ⟨r, hr⟩ := g e he; rw [hr] at hk; simp at hk
    · simp [createNamespace, makeNamespace, h]
  · intro hall
    rcases hout with ⟨⟨m, h⟩, _⟩ | ⟨_, e, he, hk⟩
    · refine ⟨by simp [createNamespace, makeNamespace, h], ?_⟩
      intro role hno
      have hm : roleGet m role = none := (fillMap_get h role).2 hno
      simp [createNamespace, makeNamespace, h, packageRefByRole, dictGet_set, hm]
    · obtain ⟨r, hr⟩ := hall e he; rw [hr] at hk; simp at hk
  · intro other role hne
    rcases hout with ⟨⟨m, h⟩, _⟩ | ⟨h, _⟩
    · simp [createNamespace, makeNamespace, h, packageRefByRole, dictGet_set, hne.symm]
    · simp [createNamespace, makeNamespace, h]
  · intro role h; simp [packageRefByRole, h]

/-- C28 is false for base references that do not start with a slash (the base is put in front
twice) or that start with two (both are kept). -/
theorem C28_counterexample :
    packageRefByRole (createNamespace [] "n" [("Unit", "Units")] (some "Lib")).1 "n" (.std "UNIT")
      = .ok "Lib/Lib/Units" ∧
    packageRefByRole (createNamespace [] "n" [("Unit", "Units")] (some "//Lib")).1 "n" (.std "UNIT")
      = .ok "//Lib/Units" := by decide +kernel

example : packageRefByRole (createNamespace [] "Lib" [("UNIT", "x"), ("!my", "a/.././b//c"),
    ("Unit", "../Other/Units"), ("BaseType", "/Abs/./T")] none).1 "Lib" (.std "UNIT")
    = .ok "/Other/Units" := by decide +kernel
example : packageRefByRole (createNamespace [] "Lib" [("UNIT", "x"), ("!my", "a/.././b//c"),
    ("Unit", "../Other/Units"), ("BaseType", "/Abs/./T")] none).1 "Lib" (.custom "my")
    = .ok "/Lib/b/c" := by decide +kernel
example : packageRefByRole (createNamespace [] "Lib" [("BaseType", "/Abs/./T")] none).1 "Lib"
    (.std "BASE_TYPE") = .ok "/Abs/T" := by decide +kernel
example : OneSlash "/Lib" ∧ LastEntry [("UNIT", "x"), ("Unit", "y"), ("!u", "z")] (.std "UNIT") "y" :=
  ⟨⟨['L', 'i', 'b'], by decide, by decide⟩,
   [("UNIT", "x")], "Unit", [("!u", "z")], rfl, by decide +kernel, by decide +kernel⟩
example : (createNamespace [] "Lib" [("Units", "x")] none).2 = .error .keyError := by decide +kernel

end Verif.Props.WorkPath
