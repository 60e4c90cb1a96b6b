import Verif.Work.DocsWrite
set_option linter.unusedSimpArgs false
set_option linter.unusedVariables false
namespace Verif.Work
open Verif.Py Verif.Pkg Verif.Pkg.Spec

/-! ### Whatever happens: what writing keeps -/

/-- Effect of writing on the workspace, whatever the outcome. -/
structure WStep (D : Nat → Prop) (w w' : DocWs) : Prop where
  inv : Inv w'.heap
  aside : Aside D w.heap w'.heap
  keep : Keep w.heap w'.heap
  root : w'.root = w.root
  docs : w'.docs = w.docs
  mappings : w'.mappings = w.mappings
  docRoot : w'.docRoot = w.docRoot

theorem WStep.refl (D : Nat → Prop) {w : DocWs} (I : Inv w.heap) : WStep D w w :=
  ⟨I, Aside.refl _ _, Keep.refl _, rfl, rfl, rfl, rfl⟩

theorem WStep.trans {D : Nat → Prop} {a b c : DocWs} (x : WStep D a b) (y : WStep D b c) :
    WStep D a c :=
  ⟨y.inv, x.aside.trans y.aside, x.keep.trans y.keep, y.root.trans x.root, y.docs.trans x.docs,
    y.mappings.trans x.mappings, y.docRoot.trans x.docRoot⟩

theorem WStep.mono {D E : Nat → Prop} {a b : DocWs} (x : WStep D a b) (h : ∀ i, D i → E i) :
    WStep E a b :=
  ⟨x.inv, x.aside.mono (fun i _ => h i), x.keep, x.root, x.docs, x.mappings, x.docRoot⟩

theorem keep_collectionAppend (h : Heap) (c x : Nat) : Keep h (collectionAppend h c x).1 := by
  rcases collectionAppend_cases h c x with h1 | ⟨A, _, _, hd⟩
  · rw [h1]; exact Keep.refl h
  · exact keep_attached A hd

theorem collectionAppend_attached {h : Heap} {c x : Nat} (hx : (h.obj x).cls = .package)
    (hok : (collectionAppend h c x).2 = .ok ()) : Attached h (collectionAppend h c x).1 c x := by
  cases hb : dictHas (h.obj c).map (h.obj x).name with
  | true => simp [collectionAppend, hx, hb] at hok
  | false =>
    have : (collectionAppend h c x).1 =
        mapSet (pushPackage (setParent h x c) c x) c (h.obj x).name x := by
      simp only [collectionAppend, hx, hb]; rfl
    rw [this]
    exact attached_pkg h c x _ hx rfl

theorem inv_collectionAppend {h : Heap} (I : Inv h) {c x : Nat} (hc : c < h.next)
    (hcc : (h.obj c).cls = .collection) (hx : x < h.next) : Inv (collectionAppend h c x).1 := by
  have := inv_append I hc hx
  unfold append at this
  rw [hcc] at this
  exact this

/-- What a successful search returns is an object of the heap. -/
theorem find_lt {h : Heap} (I : Inv h) : ∀ (n : Nat) (c : Nat) (s : List Char) (x : Nat),
    findAux n h c s = .ok (some x) → x < h.next := by
  intro n
  induction n with
  | zero => intro c s x h1; simp [findAux] at h1
  | succ n ih =>
    intro c s x h1
    unfold findAux at h1
    have hcont : (match dictGet (h.obj c).map (String.ofList (partL '/' (stripLead '/' s)).1) with
        | none => Except.ok none
        | some x => if (partL '/' (stripLead '/' s)).2 ≠ [] then
            findAux n h x (partL '/' (stripLead '/' s)).2 else Except.ok (some x)) =
        (Except.ok (some x) : Except PyErr (Option Nat)) → x < h.next := by
      intro h2
      split at h2
      · simp at h2
      · rename_i y hy
        split at h2
        · exact ih _ _ _ h2
        · simp only [Except.ok.injEq, Option.some.injEq] at h2
          subst h2
          exact map_lt I hy
    cases hcls : (h.obj c).cls with
    | collection => rw [hcls] at h1; exact hcont h1
    | package => rw [hcls] at h1; exact hcont h1
    | member k => rw [hcls] at h1; simp at h1
    | element k =>
      rw [hcls] at h1
      simp only at h1
      exact (I.members_lt c x (mem_of_elemFind h1)).1

/-- A workspace whose documents are collections of their own. -/
structure DocInv (w : DocWs) : Prop where
  inv : Inv w.heap
  root : w.root < w.heap.next ∧ (w.heap.obj w.root).cls = .collection
  docs : ∀ d ∈ w.docs, d.document < w.heap.next ∧ (w.heap.obj d.document).cls = .collection ∧
    d.document ≠ w.root
  nodup : (w.docs.map (·.document)).Nodup

/-- The documents of the workspace. -/
def IsDoc (w : DocWs) (i : Nat) : Prop := ∃ d ∈ w.docs, d.document = i

theorem docInv_step {D : Nat → Prop} {w w' : DocWs} (I : DocInv w) (S : WStep D w w') :
    DocInv w' := by
  refine ⟨S.inv, ?_, ?_, by rw [S.docs]; exact I.nodup⟩
  · rw [S.root]
    exact ⟨Nat.lt_of_lt_of_le I.root.1 S.aside.next, by rw [S.aside.cls _ I.root.1]; exact I.root.2⟩
  · intro d hd
    rw [S.docs] at hd
    obtain ⟨h1, h2, h3⟩ := I.docs d hd
    rw [S.root]
    exact ⟨Nat.lt_of_lt_of_le h1 S.aside.next, by rw [S.aside.cls _ h1]; exact h2, h3⟩

theorem find_step {w w' : DocWs} (I : DocInv w) (S : WStep (IsDoc w) w w') (c : Nat)
    (hc : c < w.heap.next) (hd : ¬ IsDoc w c) (s : String) : find w'.heap c s = find w.heap c s :=
  find_aside I.inv (by rintro i ⟨d, hd, rfl⟩ _; exact (I.docs d hd).2.1) S.aside hc hd s

theorem root_not_doc {w : DocWs} (I : DocInv w) : ¬ IsDoc w w.root := by
  rintro ⟨d, hd, e⟩; exact (I.docs d hd).2.2 e

theorem addPackages_any (root doc : Nat) : ∀ (refs : List String) (h : Heap), Inv h →
    doc < h.next → (h.obj doc).cls = .collection →
    Inv (addPackages h root doc refs).1 ∧ Aside (fun i => i = doc) h (addPackages h root doc refs).1 ∧
    Keep h (addPackages h root doc refs).1 := by
  intro refs
  induction refs with
  | nil => intro h I _ _; exact ⟨I, Aside.refl _ _, Keep.refl _⟩
  | cons r rs ih =>
    intro h I hd hc
    unfold addPackages
    cases hf : find h root r with
    | error e => exact ⟨I, Aside.refl _ _, Keep.refl _⟩
    | ok o =>
      cases o with
      | none => exact ih h I hd hc
      | some p =>
        simp only
        split
        · have hp := find_lt I _ _ _ _ hf
          have I1 := inv_collectionAppend I hd hc hp
          have A := aside_collectionAppend h doc p
          have K := keep_collectionAppend h doc p
          rcases hq : collectionAppend h doc p with ⟨h1, o⟩
          rw [hq] at I1 A K
          cases o with
          | error e => exact ⟨I1, A, K⟩
          | ok u =>
            have := ih h1 I1 (Nat.lt_of_lt_of_le hd A.next) (by rw [A.cls _ hd]; exact hc)
            exact ⟨this.1, A.trans this.2.1, K.trans this.2.2⟩
        · exact ⟨I, Aside.refl _ _, Keep.refl _⟩

theorem writeConfig_any {w : DocWs} (I : DocInv w) {d : DocConfig} (hd : d ∈ w.docs) :
    WStep (IsDoc w) w (writeConfig w d).1 := by
  obtain ⟨h1, h2, h3⟩ := I.docs d hd
  have h4 := addPackages_any w.root d.document d.packageRefs w.heap I.inv h1 h2
  have hm : ∀ i, i < w.heap.next → i = d.document → IsDoc w i := by
    intro i _ e; exact ⟨d, hd, e.symm⟩
  unfold writeConfig
  rcases hq : addPackages w.heap w.root d.document d.packageRefs with ⟨h, o⟩
  rw [hq] at h4
  cases o with
  | error e => exact ⟨h4.1, h4.2.1.mono hm, h4.2.2, rfl, rfl, rfl, rfl⟩
  | ok u => exact ⟨h4.1, h4.2.1.mono hm, h4.2.2, rfl, rfl, rfl, rfl⟩

theorem isDoc_eq {D : Nat → Prop} {w w' : DocWs} (S : WStep D w w') : IsDoc w' = IsDoc w := by
  funext i; simp [IsDoc, S.docs]

theorem writeConfigs_any : ∀ (ds : List DocConfig) {w : DocWs}, DocInv w → (∀ d ∈ ds, d ∈ w.docs) →
    WStep (IsDoc w) w (writeConfigs w ds).1 := by
  intro ds
  induction ds with
  | nil => intro w I _; exact WStep.refl _ I.inv
  | cons d ds ih =>
    intro w I hds
    have S := writeConfig_any I (hds d (by simp))
    unfold writeConfigs
    rcases hq : writeConfig w d with ⟨w1, o⟩
    rw [hq] at S
    cases o with
    | error e => exact S
    | ok u =>
      have S2 := ih (docInv_step I S) (fun x hx => by rw [S.docs]; exact hds x (by simp [hx]))
      rw [isDoc_eq S] at S2
      exact S.trans S2

theorem extras_lt {h : Heap} {emap : Dict Nat} {m : Nat} {suffixes : List String} {N : Nat}
    (he : ∀ k x, dictGet emap k = some x → x < N) : ∀ y ∈ extras h emap m suffixes, y < N := by
  intro y hy
  unfold extras at hy
  rw [List.mem_filterMap] at hy
  obtain ⟨s, _, hs⟩ := hy
  split at hs
  · exact he _ _ hs
  · simp at hs

theorem collectionMake1_any {h : Heap} (I : Inv h) (ref : List Char) :
    Inv (collectionMake1 (h.alloc .collection "") h.next ref).1 ∧
    Aside (fun _ => False) h (collectionMake1 (h.alloc .collection "") h.next ref).1 ∧
    Keep h (collectionMake1 (h.alloc .collection "") h.next ref).1 ∧
    (∀ np, (collectionMake1 (h.alloc .collection "") h.next ref).2 = .ok np →
      h.next ≤ np ∧ np < (collectionMake1 (h.alloc .collection "") h.next ref).1.next ∧
      ((collectionMake1 (h.alloc .collection "") h.next ref).1.obj np).cls = .package) := by
  have I1 := inv_alloc I .collection ""
  have hE : Empty (h.alloc .collection "") h.next := by
    refine ⟨?_, ?_, ?_⟩ <;> rw [alloc_obj_new]
  have hcc : ((h.alloc .collection "").obj h.next).cls = .collection := by rw [alloc_obj_new]
  have hlt : h.next < (h.alloc .collection "").next := Nat.lt_succ_self _
  have hfr := collectionMake1_frame I1 hlt hcc ref hE rfl
  obtain ⟨G, hok⟩ := collectionMake1_spec I1 hlt hcc ref
  have I2 := inv_collectionMake1 I1 hlt hcc ref
  have hob : ∀ i, i < h.next → (collectionMake1 (h.alloc .collection "") h.next ref).1.obj i = h.obj i := by
    intro i hi
    rw [hfr.1 i hi, alloc_obj_ne _ _ _ (by omega)]
  have hn := G.next
  have hnx : (h.alloc .collection "").next = h.next + 1 := rfl
  refine ⟨I2, ⟨by omega, fun i hi => by rw [hob i hi], fun i hi => by rw [hob i hi],
    fun i hi _ => by rw [hob i hi]⟩, (keep_alloc h _ _).trans (keep_grow G), ?_⟩
  intro np hnp
  have h1 := hok np hnp _ (Grow.refl _)
  have h2 := hfr.2 np hnp
  exact ⟨by omega, find_lt I2 _ _ _ _ h1.2.1, h1.2.2⟩

theorem writeMatched_any {w : DocWs} (I : Inv w.heap) (pkg : Nat) {emap : Dict Nat}
    (suffixes : List String) {m : Nat} (hm : m < w.heap.next)
    (he : ∀ k x, dictGet emap k = some x → x < w.heap.next) :
    WStep (fun _ => False) w (writeMatched w pkg emap suffixes m).1 := by
  have I1 := inv_alloc I .collection ""
  have hel := extras_lt (h := w.heap) (m := m) (suffixes := suffixes) he
  unfold writeMatched
  simp only
  generalize extras w.heap emap m suffixes = ex at *
  cases hr : refText (w.heap.alloc .collection "") pkg with
  | error e => exact ⟨I1, aside_alloc _ _ _ _, keep_alloc _ _ _, rfl, rfl, rfl, rfl⟩
  | ok ref =>
    simp only
    obtain ⟨I2, A2, K2, hnp⟩ := collectionMake1_any I ref.toList
    rcases hq : collectionMake1 (w.heap.alloc .collection "") w.heap.next ref.toList with ⟨h2, o⟩
    rw [hq] at I2 A2 K2 hnp
    cases o with
    | error e => exact ⟨I2, A2, K2, rfl, rfl, rfl, rfl⟩
    | ok np =>
      simp only at hnp ⊢
      obtain ⟨n1, n2, n3⟩ := hnp np rfl
      have hlt : ∀ x ∈ sortByName h2 (m :: ex), x < h2.next := by
        intro x hx
        have hx := (sortByName_perm h2 (m :: ex)).mem_iff.mp hx
        rcases List.mem_cons.mp hx with rfl | hx
        · exact Nat.lt_of_lt_of_le hm A2.next
        · exact Nat.lt_of_lt_of_le (hel x hx) A2.next
      have I3 := inv_appendAll _ I2 n2 n3 hlt
      obtain ⟨A3, K3⟩ := aside_appendAll (sortByName h2 (m :: ex)) h2 np
      have A : Aside (fun _ => False) w.heap (appendAll h2 np (sortByName h2 (m :: ex))).1 :=
        ⟨Nat.le_trans A2.next A3.next,
          fun i hi => (A3.cls i (Nat.lt_of_lt_of_le hi A2.next)).trans (A2.cls i hi),
          fun i hi => (A3.name i (Nat.lt_of_lt_of_le hi A2.next)).trans (A2.name i hi),
          fun i hi _ => (A3.same i (Nat.lt_of_lt_of_le hi A2.next) (by omega)).trans
            (A2.same i hi (by simp))⟩
      have K := K2.trans K3
      rcases hq3 : appendAll h2 np (sortByName h2 (m :: ex)) with ⟨h3, o⟩
      rw [hq3] at A K I3
      cases o with
      | error e => exact ⟨I3, A, K, rfl, rfl, rfl, rfl⟩
      | ok u => exact ⟨I3, A, K, rfl, rfl, rfl, rfl⟩

theorem writeAllMatched_any (pkg : Nat) {emap : Dict Nat} (suffixes : List String) :
    ∀ (ms : List Nat) {w : DocWs}, Inv w.heap → (∀ m ∈ ms, m < w.heap.next) →
    (∀ k x, dictGet emap k = some x → x < w.heap.next) →
    WStep (fun _ => False) w (writeAllMatched w pkg emap suffixes ms).1 := by
  intro ms
  induction ms with
  | nil => intro w I _ _; exact WStep.refl _ I
  | cons m ms ih =>
    intro w I hms he
    have S := writeMatched_any I pkg suffixes (hms m (by simp)) he
    unfold writeAllMatched
    rcases hq : writeMatched w pkg emap suffixes m with ⟨w1, o⟩
    rw [hq] at S
    cases o with
    | error e => exact S
    | ok u =>
      exact S.trans (ih S.inv (fun x hx => Nat.lt_of_lt_of_le (hms x (by simp [hx])) S.aside.next)
        (fun k x hk => Nat.lt_of_lt_of_le (he k x hk) S.aside.next))

theorem writeMapping_any {w : DocWs} (I : Inv w.heap) (mp : Mapping) :
    WStep (fun _ => False) w (writeMapping w mp).1 := by
  unfold writeMapping
  cases hf : find w.heap w.root mp.packageRef with
  | error e => exact WStep.refl _ I
  | ok o =>
    cases o with
    | none => exact WStep.refl _ I
    | some p =>
      simp only
      split
      · rw [matched_list I]
        apply writeAllMatched_any p mp.suffixes _ I
        · intro m hm
          exact (I.elems_cls p m (List.mem_filter.mp hm).1).1
        · intro k x hx
          exact (I.elems_cls p x ((nameDict_get w.heap _ (elems_nodup I p) k x).mp hx).1).1
      · exact WStep.refl _ I

theorem writeMappings_any : ∀ (ms : List Mapping) {w : DocWs}, Inv w.heap →
    WStep (fun _ => False) w (writeMappings w ms).1 := by
  intro ms
  induction ms with
  | nil => intro w I; exact WStep.refl _ I
  | cons m ms ih =>
    intro w I
    have S := writeMapping_any I m
    unfold writeMappings
    rcases hq : writeMapping w m with ⟨w1, o⟩
    rw [hq] at S
    cases o with
    | error e => exact S
    | ok u => exact S.trans (ih S.inv)

theorem writeDocuments_any {w : DocWs} (I : DocInv w) : WStep (IsDoc w) w (writeDocuments w).1 := by
  have S := writeConfigs_any w.docs I (fun _ h => h)
  unfold writeDocuments
  rcases hq : writeConfigs w w.docs with ⟨w1, o⟩
  rw [hq] at S
  cases o with
  | error e => exact S
  | ok u => exact S.trans ((writeMappings_any w1.mappings S.inv).mono (fun _ h => h.elim))

/-! ### Reachable workspaces -/

/-- A new workspace. -/
def newWs (dir : Option String) : DocWs :=
  ⟨Heap.empty.alloc .collection "", 0, [], [], dir, []⟩

theorem docInv_new (dir : Option String) : DocInv (newWs dir) := by
  refine ⟨inv_alloc inv_empty _ _, ⟨Nat.zero_lt_one, rfl⟩, ?_, by simp [newWs]⟩
  intro d hd; simp [newWs] at hd

theorem docInv_keep {w : DocWs} (I : DocInv w) {h : Heap} (Ih : Inv h) (K : Keep w.heap h)
    {ms : List Mapping} {r : Option String} {o : List Written} :
    DocInv ⟨h, w.root, w.docs, ms, r, o⟩ := by
  refine ⟨Ih, ?_, ?_, I.nodup⟩
  · exact ⟨Nat.lt_of_lt_of_le I.root.1 K.next, by rw [K.cls _ I.root.1]; exact I.root.2⟩
  · intro d hd
    obtain ⟨h1, h2, h3⟩ := I.docs d hd
    exact ⟨Nat.lt_of_lt_of_le h1 K.next, by rw [K.cls _ h1]; exact h2, h3⟩

theorem docInv_dstep {w : DocWs} (I : DocInv w) (op : DocOp) : DocInv (dstep w op) := by
  cases op with
  | pkg o => exact docInv_keep I (inv_step I.inv o) (keep_step I.inv o)
  | setRoot d => exact ⟨I.inv, I.root, I.docs, I.nodup⟩
  | createMapping r a s =>
    cases s with
    | str s => exact I
    | list l => exact ⟨I.inv, I.root, I.docs, I.nodup⟩
  | write => exact docInv_step I (writeDocuments_any I)
  | createDocument p rs =>
    have J := docInv_keep I (ms := w.mappings) (r := w.docRoot) (o := w.out)
      (inv_alloc I.inv .collection "") (keep_alloc w.heap .collection "")
    cases rs with
    | none => exact J
    | some l =>
      refine ⟨J.inv, J.root, ?_, ?_⟩
      rotate_left
      · show ((w.docs ++ [(⟨w.heap.next, p, l⟩ : DocConfig)]).map (·.document)).Nodup
        rw [List.map_append, List.nodup_append]
        refine ⟨I.nodup, by simp, ?_⟩
        intro a ha b hb e
        obtain ⟨d, hd, rfl⟩ := List.mem_map.mp ha
        simp only [List.map_cons, List.map_nil, List.mem_singleton] at hb
        have := (I.docs d hd).1
        omega
      intro d hd
      have hd : d ∈ w.docs ++ [⟨w.heap.next, p, l⟩] := hd
      rw [List.mem_append, List.mem_singleton] at hd
      rcases hd with hd | rfl
      · exact J.docs d hd
      · refine ⟨Nat.lt_succ_self _, ?_, ?_⟩
        · show ((w.heap.alloc .collection "").obj w.heap.next).cls = .collection
          rw [alloc_obj_new]
        · show w.heap.next ≠ w.root
          have := I.root.1; omega

theorem docInv_drun (ops : List DocOp) : ∀ {w : DocWs}, DocInv w → DocInv (drun w ops) := by
  induction ops with
  | nil => intro w I; exact I
  | cons op ops ih => intro w I; exact ih (docInv_dstep I op)

/-! ### Writing a second time -/

/-- The packages named in document `d` are in it. -/
def Loaded (w : DocWs) (d : DocConfig) : Prop :=
  ∀ r ∈ d.packageRefs, find w.heap w.root r = .ok none ∨
    ∃ p, find w.heap w.root r = .ok (some p) ∧ (w.heap.obj p).cls = .package ∧
      ∃ j, dictGet (w.heap.obj d.document).map (w.heap.obj p).name = some j

theorem loaded_step {w w' : DocWs} (I : DocInv w) (S : WStep (IsDoc w) w w') {d : DocConfig}
    (hd : d ∈ w.docs) (L : Loaded w d) : Loaded w' d := by
  intro r hr
  rw [S.root, find_step I S _ I.root.1 (root_not_doc I)]
  rcases L r hr with h | ⟨p, h1, h2, j, h3⟩
  · exact .inl h
  · have hp := find_lt I.inv _ _ _ _ h1
    exact .inr ⟨p, h1, by rw [S.aside.cls _ hp]; exact h2, j,
      by rw [S.aside.name _ hp]; exact S.keep.map _ (I.docs d hd).1 _ _ h3⟩

theorem addPackages_loaded {w : DocWs} (I : DocInv w) {d : DocConfig} (hd : d ∈ w.docs) :
    ∀ (refs : List String) (h h' : Heap), WStep (IsDoc w) w { w with heap := h } →
    addPackages h w.root d.document refs = (h', .ok ()) →
    ∀ r ∈ refs, find w.heap w.root r = .ok none ∨
      ∃ p, find w.heap w.root r = .ok (some p) ∧ (w.heap.obj p).cls = .package ∧
        ∃ j, dictGet (h'.obj d.document).map (w.heap.obj p).name = some j := by
  intro refs
  induction refs with
  | nil => intro h h' _ _ r hr; simp at hr
  | cons r rs ih =>
    intro h h' S hres r' hr'
    have hf := find_step I S _ I.root.1 (root_not_doc I) r
    simp only at hf
    have hdoc := I.docs d hd
    have hdlt := Nat.lt_of_lt_of_le hdoc.1 S.aside.next
    have hdc : (h.obj d.document).cls = .collection := by
      have := S.aside.cls _ hdoc.1; simp only at this; rw [this]; exact hdoc.2.1
    unfold addPackages at hres
    rw [hf] at hres
    cases hff : find w.heap w.root r with
    | error e => rw [hff] at hres; simp at hres
    | ok o =>
      cases o with
      | none =>
        rw [hff] at hres
        simp only at hres
        rcases List.mem_cons.mp hr' with rfl | hr'
        · exact .inl hff
        · exact ih h h' S hres r' hr'
      | some p =>
        rw [hff] at hres
        simp only at hres
        have hp := find_lt I.inv _ _ _ _ hff
        split at hres
        · rename_i hpc
          have hcl := S.aside.cls _ hp
          have hnm := S.aside.name _ hp
          simp only at hcl hnm
          have I1 := inv_collectionAppend S.inv hdlt hdc (Nat.lt_of_lt_of_le hp S.aside.next)
          have A := aside_collectionAppend h d.document p
          have K := keep_collectionAppend h d.document p
          have hmap : (collectionAppend h d.document p).2 = .ok () →
              dictGet ((collectionAppend h d.document p).1.obj d.document).map (h.obj p).name = some p := by
            intro hok
            rw [(collectionAppend_attached hpc hok).map, if_pos rfl, dictGet_set]; simp
          rcases hq : collectionAppend h d.document p with ⟨h1, o⟩
          rw [hq] at hres I1 A K hmap
          cases o with
          | error e => simp at hres
          | ok u =>
            simp only at hres
            have S1 : WStep (IsDoc w) w { w with heap := h1 } :=
              ⟨I1, S.aside.trans (A.mono (fun i _ e => ⟨d, hd, e.symm⟩)), S.keep.trans K, rfl, rfl, rfl, rfl⟩
            rcases List.mem_cons.mp hr' with rfl | hr'
            · refine .inr ⟨p, hff, by rw [← hcl]; exact hpc, p, ?_⟩
              have K2 := (addPackages_any w.root d.document rs h1 I1
                (Nat.lt_of_lt_of_le hdlt A.next) (by rw [A.cls _ hdlt]; exact hdc)).2.2
              rw [hres] at K2
              rw [← hnm]
              exact K2.map _ (Nat.lt_of_lt_of_le hdlt A.next) _ _ (hmap rfl)
            · exact ih h1 h' S1 hres r' hr'
        · simp at hres

theorem writeConfig_loaded {w w' : DocWs} (I : DocInv w) {d : DocConfig} (hd : d ∈ w.docs)
    (hok : writeConfig w d = (w', .ok ())) : Loaded w' d := by
  have S := writeConfig_any I hd
  rw [hok] at S
  simp only at S
  have hres : addPackages w.heap w.root d.document d.packageRefs = (w'.heap, .ok ()) := by
    unfold writeConfig at hok
    rcases hq : addPackages w.heap w.root d.document d.packageRefs with ⟨h, o⟩
    rw [hq] at hok
    cases o with
    | error e => simp at hok
    | ok u => simp only [Prod.mk.injEq, and_true] at hok; rw [← hok]
  intro r hr
  rw [S.root, find_step I S _ I.root.1 (root_not_doc I)]
  rcases addPackages_loaded I hd d.packageRefs w.heap w'.heap (WStep.refl _ I.inv) hres r hr with
    h | ⟨p, h1, h2, j, h3⟩
  · exact .inl h
  · have hp := find_lt I.inv _ _ _ _ h1
    exact .inr ⟨p, h1, by rw [S.aside.cls _ hp]; exact h2, j, by rw [S.aside.name _ hp]; exact h3⟩

theorem writeConfigs_loaded : ∀ (ds : List DocConfig) {w w' : DocWs}, DocInv w →
    (∀ d ∈ ds, d ∈ w.docs) → writeConfigs w ds = (w', .ok ()) → ∀ d ∈ ds, Loaded w' d := by
  intro ds
  induction ds with
  | nil => intro w w' _ _ _ d hd; simp at hd
  | cons d ds ih =>
    intro w w' I hds hok d' hd'
    have S := writeConfig_any I (hds d (by simp))
    unfold writeConfigs at hok
    rcases hq : writeConfig w d with ⟨w1, o⟩
    rw [hq] at hok S
    cases o with
    | error e => simp at hok
    | ok u =>
      simp only at hok S
      have I1 := docInv_step I S
      have hds1 : ∀ x ∈ ds, x ∈ w1.docs := fun x hx => by rw [S.docs]; exact hds x (by simp [hx])
      rcases List.mem_cons.mp hd' with rfl | hd'
      · have L := writeConfig_loaded I (hds d' (by simp)) hq
        have S2 := writeConfigs_any ds I1 hds1
        rw [hok] at S2
        exact loaded_step I1 S2 (by rw [S.docs]; exact hds d' (by simp)) L
      · exact ih I1 hds1 hok d' hd'

theorem addPackages_again {w : DocWs} {d : DocConfig} : ∀ (refs : List String),
    (∀ r ∈ refs, find w.heap w.root r = .ok none ∨
    ∃ p, find w.heap w.root r = .ok (some p) ∧ (w.heap.obj p).cls = .package ∧
      ∃ j, dictGet (w.heap.obj d.document).map (w.heap.obj p).name = some j) →
    addPackages w.heap w.root d.document refs = (w.heap,
      if (∃ r ∈ refs, find w.heap w.root r ≠ .ok none) then .error .valueError else .ok ()) := by
  intro refs
  induction refs with
  | nil => intro _; simp [addPackages]
  | cons r rs ih =>
    intro L
    have h1 := L r (by simp)
    unfold addPackages
    rcases h1 with h1 | ⟨p, h1, h2, j, h3⟩
    · rw [h1]
      simp only
      rw [ih (fun x hx => L x (by simp [hx]))]
      simp [h1]
    · rw [h1]
      have hh : dictHas (w.heap.obj d.document).map (w.heap.obj p).name = true := by
        simp [dictHas, h3]
      simp only [h2, if_true, collectionAppend, hh]
      rw [if_pos ⟨r, by simp, by rw [h1]; simp⟩]

theorem writeConfigs_again : ∀ (ds : List DocConfig) {w : DocWs}, (∀ d ∈ ds, Loaded w d) →
    (∃ d ∈ ds, ∃ r ∈ d.packageRefs, find w.heap w.root r ≠ .ok none) →
    (writeConfigs w ds).2 = .error .valueError := by
  intro ds
  induction ds with
  | nil => intro w _ h; obtain ⟨d, hd, _⟩ := h; simp at hd
  | cons d ds ih =>
    intro w L hex
    have h1 := addPackages_again (w := w) (d := d) d.packageRefs (L d (by simp))
    unfold writeConfigs writeConfig
    rw [h1]
    by_cases hd : ∃ r ∈ d.packageRefs, find w.heap w.root r ≠ .ok none
    · rw [if_pos hd]
    · rw [if_neg hd]
      simp only
      apply ih
      · intro x hx
        exact L x (by simp [hx])
      · obtain ⟨x, hx, r, hr, hne⟩ := hex
        rcases List.mem_cons.mp hx with rfl | hx
        · exact absurd ⟨r, hr, hne⟩ hd
        · exact ⟨x, hx, r, hr, hne⟩

/-! ### What the documents contain -/

/-- The packages that references lead to, in order. -/
def found (h : Heap) (root : Nat) (refs : List String) : List Nat :=
  refs.filterMap fun r =>
    match find h root r with
    | .ok (some p) => some p
    | _ => none

theorem addPackages_content {w : DocWs} (I : DocInv w) {d : DocConfig} (hd : d ∈ w.docs) :
    ∀ (refs : List String) (h h' : Heap), WStep (IsDoc w) w { w with heap := h } →
    addPackages h w.root d.document refs = (h', .ok ()) →
    (h'.obj d.document).packages = (h.obj d.document).packages ++ found w.heap w.root refs := by
  intro refs
  induction refs with
  | nil =>
    intro h h' _ hres
    simp only [addPackages, Prod.mk.injEq, and_true] at hres
    subst hres; simp [found]
  | cons r rs ih =>
    intro h h' S hres
    have hf := find_step I S _ I.root.1 (root_not_doc I) r
    simp only at hf
    have hdoc := I.docs d hd
    have hdlt := Nat.lt_of_lt_of_le hdoc.1 S.aside.next
    have hdc : (h.obj d.document).cls = .collection := by
      have := S.aside.cls _ hdoc.1; simp only at this; rw [this]; exact hdoc.2.1
    unfold addPackages at hres
    rw [hf] at hres
    cases hff : find w.heap w.root r with
    | error e => rw [hff] at hres; simp at hres
    | ok o =>
      cases o with
      | none =>
        rw [hff] at hres
        simp only at hres
        rw [ih h h' S hres]
        simp [found, hff]
      | some p =>
        rw [hff] at hres
        simp only at hres
        have hp := find_lt I.inv _ _ _ _ hff
        split at hres
        · rename_i hpc
          have I1 := inv_collectionAppend S.inv hdlt hdc (Nat.lt_of_lt_of_le hp S.aside.next)
          have A := aside_collectionAppend h d.document p
          have K := keep_collectionAppend h d.document p
          have hpk : (collectionAppend h d.document p).2 = .ok () →
              ((collectionAppend h d.document p).1.obj d.document).packages =
                (h.obj d.document).packages ++ [p] := by
            intro hok
            rw [(collectionAppend_attached hpc hok).packages]; simp [hpc]
          rcases hq : collectionAppend h d.document p with ⟨h1, o⟩
          rw [hq] at hres I1 A K hpk
          cases o with
          | error e => simp at hres
          | ok u =>
            simp only at hres hpk
            have S1 : WStep (IsDoc w) w { w with heap := h1 } :=
              ⟨I1, S.aside.trans (A.mono (fun i _ e => ⟨d, hd, e.symm⟩)), S.keep.trans K, rfl, rfl, rfl, rfl⟩
            rw [ih h1 h' S1 hres, hpk trivial]
            simp [found, hff]
        · simp at hres

/-- One written document as its configuration asks. -/
def DocAsked (w : DocWs) (d : DocConfig) (wr : Written) : Prop :=
  wr.filePath = outPath w d.filePath ∧ wr.document = d.document ∧
  (wr.heap.obj wr.document).packages =
    (w.heap.obj d.document).packages ++ found w.heap w.root d.packageRefs ∧
  ∀ i, i < w.heap.next → ¬ IsDoc w i → bare (wr.heap.obj i) = bare (w.heap.obj i)

theorem writeConfigs_content {w0 : DocWs} (I0 : DocInv w0) : ∀ (ds : List DocConfig) {w w' : DocWs},
    WStep (IsDoc w0) w0 w → (∀ d ∈ ds, d ∈ w0.docs) → (ds.map (·.document)).Nodup →
    (∀ d ∈ ds, (w.heap.obj d.document).packages = (w0.heap.obj d.document).packages) →
    writeConfigs w ds = (w', .ok ()) →
    ∃ wrs, w'.out = w.out ++ wrs ∧ wrs.length = ds.length ∧
      ∀ (i : Nat) (d : DocConfig) (wr : Written), ds[i]? = some d → wrs[i]? = some wr →
        DocAsked w0 d wr := by
  intro ds
  induction ds with
  | nil =>
    intro w w' _ _ _ _ hok
    simp only [writeConfigs, Prod.mk.injEq, and_true] at hok
    subst hok
    exact ⟨[], by simp, rfl, by simp⟩
  | cons d ds ih =>
    intro w w' S hds hn hpk hok
    have I := docInv_step I0 S
    have hd0 := hds d (by simp)
    have hd : d ∈ w.docs := by rw [S.docs]; exact hd0
    have S1 := writeConfig_any I hd
    have hdoc := I.docs d hd
    unfold writeConfigs at hok
    have hany := addPackages_any w.root d.document d.packageRefs w.heap I.inv hdoc.1 hdoc.2.1
    unfold writeConfig at hok S1
    rcases hq : addPackages w.heap w.root d.document d.packageRefs with ⟨h1, o⟩
    rw [hq] at hok S1 hany
    cases o with
    | error e => simp at hok
    | ok u =>
      simp only at hok S1 hany
      have hc := addPackages_content I hd d.packageRefs w.heap h1 (WStep.refl _ I.inv) hq
      rw [isDoc_eq S] at S1
      have S2 := S.trans S1
      simp only [List.map_cons, List.nodup_cons] at hn
      obtain ⟨wrs, e1, e2, e3⟩ := ih S2 (fun x hx => hds x (by simp [hx])) hn.2 (by
        intro x hx
        have hxd : x.document ≠ d.document := by
          intro e; exact hn.1 (List.mem_map.mpr ⟨x, hx, e⟩)
        have hxl := (I.docs x (by rw [S.docs]; exact hds x (by simp [hx]))).1
        rw [← hpk x (by simp [hx])]
        exact (bare_fields (hany.2.1.same _ hxl hxd)).2.2.1) hok
      refine ⟨⟨outPath w d.filePath, d.document, h1⟩ :: wrs, by rw [e1]; simp, by simp [e2], ?_⟩
      intro i x wr hx hwr
      cases i with
      | zero =>
        simp only [List.getElem?_cons_zero, Option.some.injEq] at hx hwr
        subst hx; subst hwr
        refine ⟨by simp [outPath, S.docRoot], rfl, ?_, ?_⟩
        · simp only
          rw [hc, hpk d (by simp)]
          congr 1
          unfold found
          congr 1
          funext r
          rw [S.root, find_step I0 S _ I0.root.1 (root_not_doc I0)]
        · intro i hi hnd
          exact S2.aside.same i hi hnd
      | succ i =>
        simp only [List.getElem?_cons_succ] at hx hwr
        exact e3 i x wr hx hwr

end Verif.Work
