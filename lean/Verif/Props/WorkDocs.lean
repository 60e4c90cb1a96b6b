import Verif.Work.DocsRefs
/-
C29, C30, C41: documents (workspace.py 19-54, 172-202, 226-276).
-/
set_option linter.unusedSimpArgs false
set_option linter.unusedVariables false
namespace Verif.Props.WorkDocs
open Verif.Py Verif.Pkg Verif.Pkg.Spec Verif.Work

/-! ### Where files go -/

/-- Where a file named `p` is written when the document root is `root`: without a root `p` itself,
an absolute `p` itself, else `p` below the root, separated by exactly one added slash unless the
root is empty or ends in one. -/
inductive FileAt : Option String → String → String → Prop where
  | noRoot (p : String) : FileAt none p p
  | absolute (r q : String) : FileAt (some r) ("/" ++ q) ("/" ++ q)
  | below (r p : String) : p.toList.head? ≠ some '/' → r ≠ "" → r.toList.getLast? ≠ some '/' →
      FileAt (some r) p (r ++ "/" ++ p)
  | joined (r p : String) : p.toList.head? ≠ some '/' → (r = "" ∨ r.toList.getLast? = some '/') →
      FileAt (some r) p (r ++ p)

theorem outPath_fileAt (w : DocWs) (p : String) : FileAt w.docRoot p (outPath w p) := by
  unfold outPath
  cases w.docRoot with
  | none => exact .noRoot p
  | some r =>
    simp only [pjoin]
    split
    · rename_i h
      cases hp : p.toList with
      | nil => simp [hp, startsWithL] at h
      | cons c cs =>
        have hc : c = '/' := by simpa [hp, startsWithL] using h
        subst hc
        have e : p = "/" ++ String.ofList cs := by
          apply String.toList_injective; simp [hp]
        have e2 : String.ofList ('/' :: cs) = "/" ++ String.ofList cs := by
          apply String.toList_injective; simp
        rw [e2, e]; exact .absolute r _
    · rename_i h
      have hh : p.toList.head? ≠ some '/' := by
        cases hp : p.toList with
        | nil => simp
        | cons c cs => simpa [hp, startsWithL] using h
      split
      · rename_i h2
        have e : String.ofList (r.toList ++ p.toList) = r ++ p := by
          apply String.toList_injective; simp
        rw [e]
        refine .joined r p hh ?_
        rcases h2 with h2 | h2
        · left; apply String.toList_injective; simpa using h2
        · exact .inr h2
      · rename_i h2
        have e : String.ofList (r.toList ++ '/' :: p.toList) = r ++ "/" ++ p := by
          apply String.toList_injective; simp
        rw [e]
        refine .below r p hh ?_ (fun x => h2 (.inr x))
        intro x; subst x; exact h2 (.inl rfl)

/-! ### The list of written files only grows -/

theorem out_writeMatched (w : DocWs) (pkg : Nat) (emap : Dict Nat) (suffixes : List String) (m : Nat) :
    ∃ l, (writeMatched w pkg emap suffixes m).1.out = w.out ++ l := by
  unfold writeMatched
  simp only
  split
  · exact ⟨[], by simp⟩
  · split
    · exact ⟨[], by simp⟩
    · split
      · exact ⟨[], by simp⟩
      · exact ⟨_, rfl⟩

theorem out_writeAllMatched (pkg : Nat) (emap : Dict Nat) (suffixes : List String) :
    ∀ (ms : List Nat) (w : DocWs), ∃ l, (writeAllMatched w pkg emap suffixes ms).1.out = w.out ++ l := by
  intro ms
  induction ms with
  | nil => intro w; exact ⟨[], by simp [writeAllMatched]⟩
  | cons m ms ih =>
    intro w
    obtain ⟨l, h⟩ := out_writeMatched w pkg emap suffixes m
    unfold writeAllMatched
    rcases hq : writeMatched w pkg emap suffixes m with ⟨w1, o⟩
    rw [hq] at h
    cases o with
    | error e => exact ⟨l, h⟩
    | ok u =>
      obtain ⟨l2, h2⟩ := ih w1
      exact ⟨l ++ l2, by simp only at h ⊢; rw [h2, h]; simp⟩

theorem out_writeMappings : ∀ (ms : List Mapping) (w : DocWs),
    ∃ l, (writeMappings w ms).1.out = w.out ++ l := by
  intro ms
  induction ms with
  | nil => intro w; exact ⟨[], by simp [writeMappings]⟩
  | cons m ms ih =>
    intro w
    have : ∃ l, (writeMapping w m).1.out = w.out ++ l := by
      unfold writeMapping
      split
      · exact ⟨[], by simp⟩
      · exact ⟨[], by simp⟩
      · split
        · exact out_writeAllMatched _ _ _ _ _
        · exact ⟨[], by simp⟩
    obtain ⟨l, h⟩ := this
    unfold writeMappings
    rcases hq : writeMapping w m with ⟨w1, o⟩
    rw [hq] at h
    cases o with
    | error e => exact ⟨l, h⟩
    | ok u =>
      obtain ⟨l2, h2⟩ := ih w1
      exact ⟨l ++ l2, by simp only at h ⊢; rw [h2, h]; simp⟩

/-! ### C29 -/

/-- C29, finding: after `write_documents`, whether it succeeds or raises, every search that starts
from the workspace or from any package, element or other collection that is not itself one of the
workspace's documents gives what it gave before. -/
theorem C29_found_as_before (dir : Option String) (ops : List DocOp) (c : Nat)
    (hc : c < (drun (newWs dir) ops).heap.next)
    (hd : ∀ d ∈ (drun (newWs dir) ops).docs, d.document ≠ c) (ref : String) :
    find (writeDocuments (drun (newWs dir) ops)).1.heap c ref = find (drun (newWs dir) ops).heap c ref := by
  have I := docInv_drun ops (docInv_new dir)
  exact find_step I (writeDocuments_any I) c hc (by rintro ⟨d, h1, h2⟩; exact hd d h1 h2) ref

/-- ... in particular from the workspace itself. -/
theorem C29_found_from_workspace (dir : Option String) (ops : List DocOp) (ref : String) :
    find (writeDocuments (drun (newWs dir) ops)).1.heap (drun (newWs dir) ops).root ref =
      find (drun (newWs dir) ops).heap (drun (newWs dir) ops).root ref := by
  have I := docInv_drun ops (docInv_new dir)
  exact C29_found_as_before dir ops _ I.root.1 (fun d hd => (I.docs d hd).2.2) ref

/-- C29, references, part: they are kept by a successful `write_documents` when the packages named
by documents are top-level packages (their reference is "/name") and each mapped package and its
elements have matching references.  Missing: nested packages, for which it is false
(`C29_counterexample`). -/
theorem C29_references_kept_partial (dir : Option String) (ops : List DocOp) (w' : DocWs)
    (htop : TopRefs (drun (newWs dir) ops))
    (hmap : ∀ m ∈ (drun (newWs dir) ops).mappings, MapRefs (drun (newWs dir) ops) m)
    (hok : writeDocuments (drun (newWs dir) ops) = (w', .ok ())) (x : Nat)
    (hx : x < (drun (newWs dir) ops).heap.next)
    (hc : ((drun (newWs dir) ops).heap.obj x).cls ≠ .collection) (r : Option String)
    (hr : RefReturns (drun (newWs dir) ops).heap x r) : RefReturns w'.heap x r := by
  have I := docInv_drun ops (docInv_new dir)
  have S := writeDocuments_any I
  rw [hok] at S
  exact refReturns_kept I.inv S.inv (writeDocuments_refs I htop hmap hok) hx hc hr

/-- C29, writing twice: once `write_documents` succeeded, writing again raises ValueError as soon as
one document names an existing package. -/
theorem C29_second_write_raises (dir : Option String) (ops : List DocOp) (w' : DocWs)
    (hok : writeDocuments (drun (newWs dir) ops) = (w', .ok ()))
    (hex : ∃ d ∈ (drun (newWs dir) ops).docs, ∃ r ∈ d.packageRefs,
      find (drun (newWs dir) ops).heap (drun (newWs dir) ops).root r ≠ .ok none) :
    (writeDocuments w').2 = .error .valueError := by
  have I := docInv_drun ops (docInv_new dir)
  generalize drun (newWs dir) ops = w at *
  have S := writeDocuments_any I
  rw [hok] at S
  simp only at S
  have hL : ∀ d ∈ w'.docs, Loaded w' d := by
    intro d hd
    rw [S.docs] at hd
    unfold writeDocuments at hok
    rcases hq : writeConfigs w w.docs with ⟨w1, o⟩
    rw [hq] at hok
    have S1 := writeConfigs_any w.docs I (fun _ h => h)
    rw [hq] at S1
    cases o with
    | error e => simp at hok
    | ok u =>
      simp only at hok S1
      have L := writeConfigs_loaded w.docs I (fun _ h => h) hq d hd
      have I1 := docInv_step I S1
      have S2 := writeMappings_any w1.mappings I1.inv
      rw [hok] at S2
      exact loaded_step I1 (S2.mono (fun _ h => h.elim)) (by rw [S1.docs]; exact hd) L
  have h := writeConfigs_again w'.docs hL (by
    obtain ⟨d, hd, r, hr, hne⟩ := hex
    exact ⟨d, by rw [S.docs]; exact hd, r, hr,
      by rw [S.root, find_step I S _ I.root.1 (root_not_doc I)]; exact hne⟩)
  unfold writeDocuments
  rcases hq : writeConfigs w' w'.docs with ⟨w1, o⟩
  rw [hq] at h
  simp only at h
  subst h
  rfl

/-- A workspace with packages /A/B and /C, an element /C/E and documents for /A/B and /C. -/
def ops1 : List DocOp :=
  [.pkg (.collectionMake 0 ["/A/B", "/C"]), .pkg (.new (.element .plain) "E"), .pkg (.append 3 4),
   .createDocument "c.arxml" (some ["/C"])]

def ops2 : List DocOp := ops1 ++ [.createDocument "b.arxml" (some ["/A/B", "/X"])]

/-- C29 is false as stated: a nested package changes its reference when it is written to a
document; and the same documents cannot be written a second time. -/
theorem C29_counterexample :
    RefReturns (drun (newWs none) ops2).heap 2 (some "/A/B") ∧
    (writeDocuments (drun (newWs none) ops2)).2 = .ok () ∧
    RefReturns (drun (newWs none) (ops2 ++ [.write])).heap 2 (some "/B") ∧
    (writeDocuments (drun (newWs none) (ops2 ++ [.write]))).2 = .error .valueError :=
  ⟨⟨5, by decide +kernel⟩, by decide +kernel, ⟨5, by decide +kernel⟩, by decide +kernel⟩

example : find (drun (newWs none) (ops2 ++ [.write])).heap 0 "/A/B" = .ok (some 2) ∧
    find (drun (newWs none) (ops2 ++ [.write])).heap 0 "/C/E" = .ok (some 4) := by decide +kernel

/-- The conditions of the reference theorem hold of the workspace with the document for /C. -/
example : TopRefs (drun (newWs none) ops1) ∧ (writeDocuments (drun (newWs none) ops1)).2 = .ok () ∧
    RefReturns (drun (newWs none) ops1).heap 4 (some "/C/E") ∧
    RefReturns (drun (newWs none) (ops1 ++ [.write])).heap 4 (some "/C/E") := by
  refine ⟨?_, by decide +kernel, ⟨5, by decide +kernel⟩, ⟨5, by decide +kernel⟩⟩
  intro d hd r hr p hp
  have hd' : d = ⟨5, "c.arxml", ["/C"]⟩ := by
    have : (drun (newWs none) ops1).docs = [⟨5, "c.arxml", ["/C"]⟩] := rfl
    rw [this, List.mem_singleton] at hd; exact hd
  subst hd'
  simp only [List.mem_singleton] at hr
  subst hr
  have : find (drun (newWs none) ops1).heap (drun (newWs none) ops1).root "/C" = .ok (some 3) := by
    decide +kernel
  rw [this] at hp
  simp only [Except.ok.injEq, Option.some.injEq] at hp
  subst hp
  exact ⟨0, _, .top (by decide +kernel) (by decide +kernel)⟩

/-! ### C41 -/

/-- C41: a successful `write_documents` writes the configured documents first, one file each, in
the order of their configuration; each lists the packages its references lead to, in order, after
what it listed before, and everything but the documents is written as it was. -/
theorem C41_documents_contents (dir : Option String) (ops : List DocOp) (w' : DocWs)
    (hok : writeDocuments (drun (newWs dir) ops) = (w', .ok ())) :
    ∃ wrs rest, w'.out = (drun (newWs dir) ops).out ++ wrs ++ rest ∧
      wrs.length = (drun (newWs dir) ops).docs.length ∧
      ∀ (i : Nat) (d : DocConfig) (wr : Written), (drun (newWs dir) ops).docs[i]? = some d →
        wrs[i]? = some wr →
        FileAt (drun (newWs dir) ops).docRoot d.filePath wr.filePath ∧ wr.document = d.document ∧
        (wr.heap.obj wr.document).packages = ((drun (newWs dir) ops).heap.obj d.document).packages ++
          found (drun (newWs dir) ops).heap (drun (newWs dir) ops).root d.packageRefs ∧
        ∀ j, j < (drun (newWs dir) ops).heap.next →
          (∀ d ∈ (drun (newWs dir) ops).docs, d.document ≠ j) →
          bare (wr.heap.obj j) = bare ((drun (newWs dir) ops).heap.obj j) := by
  have I := docInv_drun ops (docInv_new dir)
  generalize drun (newWs dir) ops = w at *
  unfold writeDocuments at hok
  rcases hq : writeConfigs w w.docs with ⟨w1, o⟩
  rw [hq] at hok
  cases o with
  | error e => simp at hok
  | ok u =>
    simp only at hok
    obtain ⟨wrs, e1, e2, e3⟩ := writeConfigs_content I w.docs (WStep.refl _ I.inv) (fun _ h => h)
      I.nodup (fun _ _ => rfl) hq
    obtain ⟨rest, hrest⟩ := out_writeMappings w1.mappings w1
    rw [hok] at hrest
    refine ⟨wrs, rest, by simp only at hrest; rw [hrest, e1], e2, ?_⟩
    intro i d wr hd hwr
    obtain ⟨h1, h2, h3, h4⟩ := e3 i d wr hd hwr
    exact ⟨h1 ▸ outPath_fileAt w d.filePath, h2, h3, fun j hj hn => h4 j hj (by rintro ⟨d', hd', e⟩; exact hn d' hd' e)⟩

example : (drun (newWs (some "out")) (ops2 ++ [.write])).out.map
    (fun wr => (wr.filePath, (wr.heap.obj wr.document).packages)) =
    [("out/c.arxml", [3]), ("out/b.arxml", [2])] := by decide +kernel

/-! ### C30 -/

/-- C30: generating documents from a mapping whose reference leads to a package (with reference
`/n1/n2/...`, usable names) and whose non-empty suffixes are distinct succeeds and writes one file
per accepted element, in package order, named after the element, whose content is the one
`DocOf` describes; the workspace's objects keep everything but the elements' parents. -/
theorem C30_mapping (dir : Option String) (ops : List DocOp) (mp : Mapping) (p c : Nat)
    (ns : List String)
    (hf : find (drun (newWs dir) ops).heap (drun (newWs dir) ops).root mp.packageRef = .ok (some p))
    (hpc : ((drun (newWs dir) ops).heap.obj p).cls = .package)
    (hp : ParentPath (drun (newWs dir) ops).heap c ns p) (g : ∀ n ∈ ns, GoodName n)
    (hs : (mp.suffixes.filter (· ≠ "")).Nodup) :
    ∃ h1 wrs, writeMapping (drun (newWs dir) ops) mp =
        ({ drun (newWs dir) ops with heap := h1, out := (drun (newWs dir) ops).out ++ wrs }, .ok ()) ∧
      wrs.length = (((drun (newWs dir) ops).heap.obj p).elements.filter mp.accepts).length ∧
      (∀ (i : Nat) (m : Nat) (wr : Written),
        (((drun (newWs dir) ops).heap.obj p).elements.filter mp.accepts)[i]? = some m →
        wrs[i]? = some wr →
        FileAt (drun (newWs dir) ops).docRoot
          (((drun (newWs dir) ops).heap.obj m).name ++ ".arxml") wr.filePath ∧
        DocOf (drun (newWs dir) ops).heap ((drun (newWs dir) ops).heap.obj p).elements mp.suffixes
          ns m wr) ∧
      ∀ i, i < (drun (newWs dir) ops).heap.next →
        bare (h1.obj i) = bare ((drun (newWs dir) ops).heap.obj i) := by
  have I := docInv_drun ops (docInv_new dir)
  generalize drun (newWs dir) ops = w at *
  unfold writeMapping
  rw [hf]
  simp only [hpc, if_true]
  rw [matched_list I.inv]
  obtain ⟨h1, wrs, e1, e2, e3, e4⟩ := writeAllMatched_ok I.inv hp hpc g hs
    ((w.heap.obj p).elements.filter mp.accepts) w (Src.refl I.inv)
    (fun m hm => (List.mem_filter.mp hm).1)
  exact ⟨h1, wrs, e1, e2, fun i m wr hm hwr => ⟨(e3 i m wr hm hwr).1 ▸ outPath_fileAt w _, (e3 i m wr hm hwr).2⟩, fun i hi => e4.aside.same i hi (by simp)⟩

/-- The conditions on a document determine its list of elements: two lists with the same members,
without repetition and sorted by distinct names are equal. -/
theorem C30_content_unique {h : Heap} {a b : List Nat} (ha : a.Nodup) (hb : b.Nodup)
    (hab : ∀ y, y ∈ a ↔ y ∈ b)
    (hinj : ∀ x ∈ a, ∀ y ∈ a, (h.obj x).name = (h.obj y).name → x = y)
    (sa : a.Pairwise (fun x y => (h.obj x).name ≤ (h.obj y).name))
    (sb : b.Pairwise (fun x y => (h.obj x).name ≤ (h.obj y).name)) : a = b := by
  induction a generalizing b with
  | nil =>
    cases b with
    | nil => rfl
    | cons y ys => exact absurd ((hab y).mpr (by simp)) (by simp)
  | cons x xs ih =>
    cases b with
    | nil => exact absurd ((hab x).mp (by simp)) (by simp)
    | cons y ys =>
      rw [List.pairwise_cons] at sa sb
      rw [List.nodup_cons] at ha hb
      have hxy : x = y := by
        rcases List.mem_cons.mp ((hab x).mp (by simp)) with e | hx
        · exact e
        · rcases List.mem_cons.mp ((hab y).mpr (by simp)) with e | hy
          · exact e.symm
          · exact hinj x (by simp) y (by simp [hy]) (String.le_antisymm (sa.1 y hy) (sb.1 x hx))
      subst hxy
      congr 1
      apply ih ha.2 hb.2 _ (fun u hu v hv => hinj u (by simp [hu]) v (by simp [hv])) sa.2 sb.2
      intro z
      have := hab z
      simp only [List.mem_cons] at this
      constructor
      · intro hz
        rcases this.mp (.inr hz) with e | h
        · subst e; exact absurd hz ha.1
        · exact h
      · intro hz
        rcases this.mpr (.inr hz) with e | h
        · subst e; exact absurd hz hb.1
        · exact h

/-- A reference that leads nowhere writes nothing; one that leads to something else than a package
raises ValueError; in both cases nothing changes. -/
theorem C30_no_package (w : DocWs) (mp : Mapping) :
    (find w.heap w.root mp.packageRef = .ok none → writeMapping w mp = (w, .ok ())) ∧
    (∀ x, find w.heap w.root mp.packageRef = .ok (some x) → (w.heap.obj x).cls ≠ .package →
      writeMapping w mp = (w, .error .valueError)) ∧
    (∀ e, find w.heap w.root mp.packageRef = .error e → writeMapping w mp = (w, .error e)) := by
  refine ⟨?_, ?_, ?_⟩
  · intro h; simp [writeMapping, h]
  · intro x h hx; simp [writeMapping, h, hx]
  · intro e h; simp [writeMapping, h]

/-- /A/B with the elements Com, Com_Impl, Com_Bsw, Dio (identities 3, 4, 5, 6). -/
def ops3 : List DocOp :=
  [.pkg (.collectionMake 0 ["/A/B"]), .pkg (.new (.element .swc) "Com"), .pkg (.append 2 3),
   .pkg (.new (.element .plain) "Com_Impl"), .pkg (.append 2 4),
   .pkg (.new (.element .plain) "Com_Bsw"), .pkg (.append 2 5),
   .pkg (.new (.element .swc) "Dio"), .pkg (.append 2 6)]

def isSwc (x : Nat) : Bool := x = 3 || x = 6

def shown (wr : Written) : String × List Nat :=
  (wr.filePath, match find wr.heap wr.document "/A/B" with
    | .ok (some p) => (wr.heap.obj p).elements
    | _ => [])

example : (writeMapping (drun (newWs (some "d")) ops3) ⟨"/A/B", isSwc, ["_Impl", "", "_Bsw"]⟩).1.out.map shown
    = [("d/Com.arxml", [3, 5, 4]), ("d/Dio.arxml", [6])] := by decide +kernel

example : find (drun (newWs none) ops3).heap 0 "/A/B" = .ok (some 2) ∧
    ParentPath (drun (newWs none) ops3).heap 0 ["A", "B"] 2 := by
  refine ⟨by decide +kernel, ?_⟩
  have h1 : ParentPath (drun (newWs none) ops3).heap 0
      [((drun (newWs none) ops3).heap.obj 1).name] 1 := .top (by decide +kernel) (by decide +kernel)
  have h2 : ((drun (newWs none) ops3).heap.obj 2).parent = some 1 := by decide +kernel
  exact .under h1 h2

/-- C30 fails for a suffix listed twice (DuplicateElement), for suffixes given as a plain string
(AttributeError), and when the package was written to a document before: then the generated
document holds the package under its changed reference. -/
theorem C30_counterexample :
    (writeMapping (drun (newWs none) ops3) ⟨"/A/B", isSwc, ["_Impl", "_Impl"]⟩).2 =
      .error .duplicateElement ∧
    (∀ w s, createMapping w "/A/B" isSwc (.str s) = (w, .error .attributeError)) ∧
    (let w := drun (newWs none) (ops3 ++ [.createDocument "b.arxml" (some ["/A/B"]), .write])
     let wr := (writeMapping w ⟨"/A/B", isSwc, []⟩).1.out
     wr.map (fun r => (r.filePath, find r.heap r.document "/A/B", find r.heap r.document "/B/Com")) =
       [("b.arxml", .ok none, .ok (some 3)), ("Com.arxml", .ok none, .ok (some 3)),
        ("Dio.arxml", .ok none, .ok none)]) :=
  ⟨by decide +kernel, fun _ _ => rfl, by decide +kernel⟩

end Verif.Props.WorkDocs
