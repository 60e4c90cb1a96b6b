import Verif.Work.Template
import Verif.Pkg.More
set_option linter.unusedSimpArgs false
set_option linter.unusedVariables false
namespace Verif.Work
open Verif.Py Verif.Pkg Verif.Pkg.Spec

/-! ### What every call keeps -/

/-- Objects keep class and name; nothing disappears from a container. -/
structure Keep (h h' : Heap) : Prop where
  next : h.next ≤ h'.next
  cls : ∀ i, i < h.next → (h'.obj i).cls = (h.obj i).cls
  name : ∀ i, i < h.next → (h'.obj i).name = (h.obj i).name
  map : ∀ i, i < h.next → ∀ k j, dictGet (h.obj i).map k = some j → dictGet (h'.obj i).map k = some j

theorem Keep.refl (h : Heap) : Keep h h :=
  ⟨Nat.le_refl _, fun _ _ => rfl, fun _ _ => rfl, fun _ _ _ _ e => e⟩

theorem Keep.trans {a b c : Heap} (x : Keep a b) (y : Keep b c) : Keep a c where
  next := Nat.le_trans x.next y.next
  cls i hi := (y.cls i (Nat.lt_of_lt_of_le hi x.next)).trans (x.cls i hi)
  name i hi := (y.name i (Nat.lt_of_lt_of_le hi x.next)).trans (x.name i hi)
  map i hi k j e := y.map i (Nat.lt_of_lt_of_le hi x.next) k j (x.map i hi k j e)

theorem keep_grow {h h' : Heap} (G : Grow h h') : Keep h h' where
  next := G.next
  cls := G.cls
  name := G.name
  map i hi k j e := by
    rcases G.map i hi k with h1 | ⟨h1, _⟩
    · rw [h1, e]
    · rw [e] at h1; simp at h1

theorem keep_attached {h h' : Heap} {c x : Nat} (A : Attached h h' c x)
    (hd : dictHas (h.obj c).map (h.obj x).name = false) : Keep h h' where
  next := by rw [A.next]; exact Nat.le_refl _
  cls i _ := A.cls i
  name i _ := A.name i
  map i _ k j e := by
    rw [A.map]
    split
    · rename_i hi; subst hi
      rw [dictGet_set]
      split
      · rename_i hk; subst hk; simp [dictHas, e] at hd
      · exact e
    · exact e

theorem keep_packageAppend (h : Heap) (c x : Nat) : Keep h (packageAppend h c x).1 := by
  rcases packageAppend_cases h c x with ⟨h1, _⟩ | ⟨A, _, _, hd⟩
  · rw [h1]; exact Keep.refl h
  · exact keep_attached A hd

theorem keep_append (h : Heap) (c x : Nat) : Keep h (append h c x).1 := by
  unfold append
  split
  · exact keep_packageAppend h c x
  · rcases collectionAppend_cases h c x with h1 | ⟨A, _, _, hd⟩
    · rw [h1]; exact Keep.refl h
    · exact keep_attached A hd
  · exact Keep.refl h

theorem keep_alloc (h : Heap) (cls : Cls) (name : String) : Keep h (h.alloc cls name) where
  next := Nat.le_succ _
  cls i hi := by rw [alloc_obj_ne _ _ _ (Nat.ne_of_lt hi)]
  name i hi := by rw [alloc_obj_ne _ _ _ (Nat.ne_of_lt hi)]
  map i hi k j e := by rw [alloc_obj_ne _ _ _ (Nat.ne_of_lt hi)]; exact e

theorem keep_of_map {h h' : Heap} (h1 : h'.next = h.next) (h2 : ∀ i, (h'.obj i).cls = (h.obj i).cls)
    (h3 : ∀ i, (h'.obj i).name = (h.obj i).name) (h4 : ∀ i, (h'.obj i).map = (h.obj i).map) :
    Keep h h' where
  next := by rw [h1]; exact Nat.le_refl _
  cls i _ := h2 i
  name i _ := h3 i
  map i _ k j e := by rw [h4]; exact e

theorem keep_addMember (h : Heap) (e m : Nat) : Keep h (addMember h e m).1 := by
  unfold addMember
  split
  all_goals first
    | exact Keep.refl h
    | (apply keep_of_map
       · rfl
       all_goals (intro i; simp only [Heap.set, setParent]; repeat' split)
       all_goals simp_all)

theorem keep_step {h : Heap} (I : Inv h) (op : Op) : Keep h (step h op) := by
  unfold step
  split
  · rename_i hv
    cases op with
    | new cls name => exact keep_alloc h cls name
    | append c x => exact keep_append h c x
    | addMember e m => exact keep_addMember h e m
    | createPackage c name =>
      simp only
      unfold createPackage
      split
      · rcases packageCreate_cases h c name hv with ⟨_, h1⟩ | ⟨hd, C, _⟩
        · rw [h1]; exact Keep.refl h
        · exact keep_grow (grow_created I hv hd C)
      · rcases collectionCreate_cases h c name hv with ⟨_, h1⟩ | ⟨hd, C, _⟩
        · rw [h1]; exact Keep.refl h
        · exact keep_grow (grow_created I hv hd C)
      · exact Keep.refl h
    | packageMake c ref =>
      exact keep_grow (packageMake_spec _ I hv.1 hv.2 _ (Nat.le_refl _)).1
    | collectionMake c refs => exact keep_grow (collectionMake_spec refs I hv.1 hv.2).2
  · exact Keep.refl h

theorem keep_run (ops : List Op) : ∀ {h : Heap}, Inv h → Keep h (run h ops) := by
  induction ops with
  | nil => intro h I; exact Keep.refl h
  | cons op ops ih => intro h I; exact (keep_step I op).trans (ih (inv_step I op))

/-! ### make_packages on a path that exists -/

theorem packageMake_next : ∀ (fuel : Nat) (r1 : Heap) (_ : Inv r1) (y : Nat) (_ : y < r1.next)
    (_ : (r1.obj y).cls = .package) (s : List Char), r1.next ≤ (packageMake fuel r1 y s).1.next := by
  intro fuel
  induction fuel with
  | zero => intro r1 _ y _ _ s; simp [packageMake]
  | succ n ih =>
    intro r1 I1 y hy hyc s
    unfold packageMake
    split
    · exact Nat.le_refl _
    · simp only
      split
      · rename_i hg1
        rcases packageCreate_cases r1 y (String.ofList (partL '/' s).1) hy with
          ⟨h1, _⟩ | ⟨hd1, C1, h4⟩
        · simp [dictHas, hg1] at h1
        · have hI1 := inv_created I1 hy (by simp [hyc, Cls.isContainer]) hd1 C1
          have hnx1 := created_next C1
          have hnc1 := created_new_cls C1
          have hq1 : packageCreate r1 y (String.ofList (partL '/' s).1) =
            ((packageCreate r1 y (String.ofList (partL '/' s).1)).1,
              .ok (.obj r1.next)) := Prod.ext rfl h4
          generalize (packageCreate r1 y (String.ofList (partL '/' s).1)).1 = r2 at *
          rw [hq1]
          simp only
          split
          · have := ih r2 hI1 r1.next (by omega) hnc1 (partL '/' s).2
            omega
          · simp only; omega
      · rename_i z hz
        split
        · rename_i hzc
          split
          · exact ih r1 I1 z (map_lt I1 hz) hzc _
          · exact Nat.le_refl _
        · exact Nat.le_refl _

theorem packageMake_keep : ∀ (fuel : Nat) {h : Heap} (_ : Inv h) {c : Nat} (_ : c < h.next)
    (_ : (h.obj c).cls = .package) (ref : List Char) (x : Nat),
    packageMake fuel h c ref = (h, .ok x) → ∀ h2, Keep h h2 → packageMake fuel h2 c ref = (h2, .ok x)
  | 0, h, I, c, _, _, ref, x, hr, h2, K => by simp [packageMake] at hr
  | fuel + 1, h, I, c, hc, hcc, ref, x, hr, h2, K => by
    unfold packageMake at hr ⊢
    by_cases hs : startsWithL '/' ref = true
    · simp [hs] at hr
    simp only [hs, Bool.false_eq_true, if_false] at hr ⊢
    cases hg : dictGet (h.obj c).map (String.ofList (partL '/' ref).1) with
    | some y =>
      rw [K.map c hc _ _ hg]
      simp only [hg] at hr ⊢
      have hy := map_lt I hg
      rw [K.cls y hy]
      by_cases hyc : (h.obj y).cls = .package
      · simp only [hyc, if_true] at hr ⊢
        by_cases hp : (partL '/' ref).2 ≠ []
        · simp only [hp, if_true, ne_eq, not_false_eq_true] at hr ⊢
          exact packageMake_keep fuel I hy hyc _ x hr h2 K
        · simp only [hp, if_false, Prod.mk.injEq, true_and] at hr ⊢
          exact hr
      · simp [hyc] at hr
    | none =>
      exfalso
      simp only [hg] at hr
      rcases packageCreate_cases h c (String.ofList (partL '/' ref).1) hc with ⟨h1, _⟩ | ⟨hd, C, h3⟩
      · simp [dictHas, hg] at h1
      · have hI := inv_created I hc (by simp [hcc, Cls.isContainer]) hd C
        have hnx := created_next C
        have hnc := created_new_cls C
        have hq : packageCreate h c (String.ofList (partL '/' ref).1) =
          ((packageCreate h c (String.ofList (partL '/' ref).1)).1, .ok (.obj h.next)) :=
          Prod.ext rfl h3
        generalize (packageCreate h c (String.ofList (partL '/' ref).1)).1 = r1 at *
        rw [hq] at hr
        simp only at hr
        have hle : r1.next ≤ h.next := by
          split at hr
          · have K2 := packageMake_next fuel r1 hI h.next (by omega) hnc (partL '/' ref).2
            rw [hr] at K2; exact K2
          · simp only [Prod.mk.injEq] at hr
            rw [hr.1]; exact Nat.le_refl _
        omega

theorem collectionMake1_keep {h : Heap} (I : Inv h) {c : Nat} (hc : c < h.next)
    (hcc : (h.obj c).cls = .collection) (ref : List Char) (x : Nat)
    (hr : collectionMake1 h c ref = (h, .ok x)) (h2 : Heap) (K : Keep h h2) :
    collectionMake1 h2 c ref = (h2, .ok x) := by
  unfold collectionMake1 at hr ⊢
  simp only at hr ⊢
  cases hg : dictGet (h.obj c).map (String.ofList (partL '/' (stripLead '/' ref)).1) with
  | some y =>
    rw [K.map c hc _ _ hg]
    simp only [hg] at hr ⊢
    split at hr
    · rename_i hp
      rw [if_pos hp]
      exact packageMake_keep _ I (map_lt I hg) (coll_map_pkg I hcc hg) _ x hr h2 K
    · rename_i hp
      rw [if_neg hp]
      simp only [Prod.mk.injEq, true_and] at hr ⊢
      exact hr
  | none =>
    exfalso
    simp only [hg] at hr
    rcases collectionCreate_cases h c (String.ofList (partL '/' (stripLead '/' ref)).1) hc with
      ⟨h1, _⟩ | ⟨hd, C, h3⟩
    · simp [dictHas, hg] at h1
    · have hI := inv_created I hc (by simp [hcc, Cls.isContainer]) hd C
      have hnx := created_next C
      have hnc := created_new_cls C
      have hq : collectionCreate h c (String.ofList (partL '/' (stripLead '/' ref)).1) =
        ((collectionCreate h c (String.ofList (partL '/' (stripLead '/' ref)).1)).1,
          .ok (.obj h.next)) := Prod.ext rfl h3
      generalize (collectionCreate h c (String.ofList (partL '/' (stripLead '/' ref)).1)).1 = r1 at *
      rw [hq] at hr
      simp only at hr
      split at hr
      · have := packageMake_next ((partL '/' (stripLead '/' ref)).2.length + 1) r1 hI h.next
          (by omega) hnc (partL '/' (stripLead '/' ref)).2
        rw [hr] at this
        simp only at this
        omega
      · simp only [Prod.mk.injEq] at hr
        rw [hr.1] at hnx; omega

/-! ### find of a plain name in a package -/

theorem find_plain {h : Heap} {p : Nat} (hp : (h.obj p).cls = .package) {n : String}
    (hn : '/' ∉ n.toList) : find h p n = .ok (dictGet (h.obj p).map n) := by
  unfold find
  rw [findAux]
  simp only [hp]
  have h1 : stripLead '/' n.toList = n.toList := by
    cases hq : n.toList with
    | nil => rfl
    | cons c cs =>
      rw [hq] at hn
      simp only [List.mem_cons, not_or] at hn
      simp [stripLead, Ne.symm hn.1]
  rw [h1, partL_no_sep _ _ hn]
  simp only [String.ofList_toList, ne_eq, not_true_eq_false, if_false]
  cases dictGet (h.obj p).map n <;> rfl

/-! ### The workspace invariant -/

/-- The workspace itself is an existing package collection in a consistent heap. -/
structure WsInv (w : Ws) : Prop where
  inv : Inv w.heap
  root_lt : w.root < w.heap.next
  root_cls : (w.heap.obj w.root).cls = .collection

/-- A create call that delivered what the template promises. -/
def Call.good (c : Call) : Prop :=
  c.append = true ∧ ∃ o k, c.result = .ok (some o) ∧ (c.after.obj o).cls = .element k ∧
    (c.after.obj o).name = c.name

/-- Relation between a workspace and a later one. -/
structure Later (w w' : Ws) : Prop where
  keep : Keep w.heap w'.heap
  root : w'.root = w.root
  nss : w'.nss = w.nss
  trace : ∃ l, w'.trace = w.trace ++ l

theorem Later.refl (w : Ws) : Later w w := ⟨Keep.refl _, rfl, rfl, [], by simp⟩

theorem Later.trans {a b c : Ws} (x : Later a b) (y : Later b c) : Later a c := by
  obtain ⟨l, hl⟩ := x.trace
  obtain ⟨l', hl'⟩ := y.trace
  exact ⟨x.keep.trans y.keep, y.root.trans x.root, y.nss.trans x.nss, l ++ l', by
    rw [hl', hl, List.append_assoc]⟩

theorem WsInv.later {w w' : Ws} (W : WsInv w) (L : Later w w') (I : Inv w'.heap) : WsInv w' :=
  ⟨I, by rw [L.root]; exact Nat.lt_of_lt_of_le W.root_lt L.keep.next,
   by rw [L.root, L.keep.cls _ W.root_lt]; exact W.root_cls⟩

/-- What is known of the recorded calls: the good ones have left an entry in their package. -/
structure TraceInv (w : Ws) : Prop where
  entry : ∀ c ∈ w.trace, c.pkg < w.heap.next ∧ (c.good → '/' ∉ c.name.toList →
    dictGet (w.heap.obj c.pkg).map c.name ≠ none)
  once : w.trace.Pairwise fun c d => c.good → '/' ∉ c.name.toList →
    ¬ (d.pkg = c.pkg ∧ d.name = c.name)

theorem TraceInv.heap {w : Ws} (T : TraceInv w) {h : Heap} (K : Keep w.heap h) :
    TraceInv { w with heap := h } := by
  refine ⟨?_, T.once⟩
  intro c hc
  obtain ⟨h1, h2⟩ := T.entry c hc
  refine ⟨Nat.lt_of_lt_of_le h1 K.next, ?_⟩
  intro hg hn hnone
  have := h2 hg hn
  cases hq : dictGet (w.heap.obj c.pkg).map c.name with
  | none => exact this hq
  | some j => rw [K.map _ h1 _ _ hq] at hnone; simp at hnone

theorem isElement_iff {h : Heap} {o : Nat} : isElement h o = true ↔ ∃ k, (h.obj o).cls = .element k := by
  unfold isElement
  split
  · rename_i k hk; simp [hk]
  · rename_i hk; simp only [Bool.false_eq_true, false_iff]; rintro ⟨k, h1⟩; exact hk k h1

theorem isElement_lt {h : Heap} (I : Inv h) {o : Nat} (he : isElement h o = true) : o < h.next := by
  obtain ⟨k, hk⟩ := isElement_iff.mp he
  by_cases hlt : o < h.next
  · exact hlt
  · rw [I.fresh o (Nat.le_of_not_lt hlt)] at hk
    simp [Obj.blank] at hk

/-- A package that contains the name after `append`, whether it was accepted or rejected. -/
theorem packageAppend_entry {h : Heap} {c x : Nat} (he : isElement h x = true) :
    dictGet ((packageAppend h c x).1.obj c).map (h.obj x).name ≠ none ∧
    ((packageAppend h c x).2 = .ok () →
      dictGet ((packageAppend h c x).1.obj c).map (h.obj x).name = some x) ∧
    ((packageAppend h c x).2 = .ok () ∨ ∃ e, (packageAppend h c x).2 = .error e) := by
  obtain ⟨k, hk⟩ := isElement_iff.mp he
  rcases packageAppend_cases h c x with ⟨h1, e, h2⟩ | ⟨A, h2, _, _⟩
  · refine ⟨?_, by intro h3; rw [h2] at h3; simp at h3, .inr ⟨e, h2⟩⟩
    rw [h1]
    intro hnone
    have hd : dictHas (h.obj c).map (h.obj x).name = false := by simp [dictHas, hnone]
    simp [packageAppend, hk, hd] at h2
  · have : dictGet ((packageAppend h c x).1.obj c).map (h.obj x).name = some x := by
      rw [A.map]; simp [dictGet_set]
    exact ⟨by rw [this]; simp, fun _ => this, .inl h2⟩

theorem inv_packageAppend {h : Heap} (I : Inv h) {c x : Nat} (hc : c < h.next)
    (hcc : (h.obj c).cls = .package) (hx : x < h.next) : Inv (packageAppend h c x).1 := by
  have := inv_append I hc hx
  simpa [append, hcc] using this

/-- Everything about one application after its dependencies. -/
theorem applyBody_spec (w : Ws) (W : WsInv w) (kw : List String) (name nsName : String) (role : Role)
    (deps : List Template) (app : Bool) (create : Heap → Nat → List Nat → List String → Script)
    (ds : List Nat) :
    let r := applyBody w kw name nsName role deps app create ds
    Later w r.1 ∧ WsInv r.1 ∧ (TraceInv w → TraceInv r.1) := by
  intro r
  have key : Later w r.1 ∧ Inv r.1.heap ∧ (TraceInv w → TraceInv r.1) := by
    show Later w (applyBody w kw name nsName role deps app create ds).1 ∧
      Inv (applyBody w kw name nsName role deps app create ds).1.heap ∧ (TraceInv w →
        TraceInv (applyBody w kw name nsName role deps app create ds).1)
    unfold applyBody
    cases hr : packageRefByRole w.nss nsName role with
    | error e => exact ⟨Later.refl w, W.inv, id⟩
    | ok ref =>
      simp only
      have hI := inv_collectionMake1 W.inv W.root_lt W.root_cls ref.toList
      obtain ⟨G, S⟩ := collectionMake1_spec W.inv W.root_lt W.root_cls ref.toList
      have K := keep_grow G
      have hfin : ∀ (h : Heap), Keep w.heap h → Later w { w with heap := h } := fun h K =>
        ⟨K, rfl, rfl, [], by simp⟩
      rcases hm : collectionMake1 w.heap w.root ref.toList with ⟨h2, o⟩
      rw [hm] at hI K S G
      simp only at hI K S G
      cases o with
      | error e => exact ⟨hfin h2 K, hI, fun T => T.heap K⟩
      | ok pkg =>
        simp only
        obtain ⟨s1, s2, hpc⟩ := S pkg rfl h2 (Grow.refl h2)
        have hpl : pkg < h2.next := by
          by_cases hlt : pkg < h2.next
          · exact hlt
          · rw [hI.fresh pkg (Nat.le_of_not_lt hlt)] at hpc; simp [Obj.blank] at hpc
        rw [if_pos hpc]
        cases hf : find h2 pkg name with
        | error e => exact ⟨hfin h2 K, hI, fun T => T.heap K⟩
        | ok fo =>
          cases fo with
          | some o => exact ⟨hfin h2 K, hI, fun T => T.heap K⟩
          | none =>
            simp only
            generalize create h2 pkg ds kw = s
            have hI3 := inv_run s.1 hI
            have K3 := keep_run s.1 hI
            generalize run h2 s.1 = h3 at hI3 K3
            have hL3 : ∀ h, Keep h3 h → Later w ⟨h, w.root, w.nss, w.trace ++
                [⟨h2, pkg, name, deps, ds, app, h3, s.2⟩]⟩ := fun h Kh =>
              ⟨(K.trans K3).trans Kh, rfl, rfl, _, rfl⟩
            -- the trace invariant with the new call
            have hT : ∀ h, Keep h3 h →
                ((⟨h2, pkg, name, deps, ds, app, h3, s.2⟩ : Call).good →
                  '/' ∉ name.toList → dictGet (h.obj pkg).map name ≠ none) →
                TraceInv w → TraceInv ⟨h, w.root, w.nss, w.trace ++
                  [⟨h2, pkg, name, deps, ds, app, h3, s.2⟩]⟩ := by
              intro h Kh hentry T
              have T' := T.heap ((K.trans K3).trans Kh)
              constructor
              · intro c hc
                rcases List.mem_append.mp hc with hc | hc
                · exact T'.entry c hc
                · rw [List.mem_singleton] at hc
                  subst hc
                  exact ⟨Nat.lt_of_lt_of_le hpl (K3.trans Kh).next, hentry⟩
              · rw [List.pairwise_append]
                refine ⟨T.once, by simp, ?_⟩
                intro c hc d hd
                rw [List.mem_singleton] at hd
                subst hd
                rintro hg hn ⟨e1, e2⟩
                simp only at e1 e2
                have T2 := (T.heap K).entry c hc
                have := T2.2 hg hn
                rw [← e1, ← e2] at this
                simp only at this
                rw [← e2] at hn
                rw [find_plain hpc hn] at hf
                simp only [Except.ok.injEq] at hf
                exact this hf
            cases hs : s.2 with
            | error e =>
              simp only [hs] at hL3 hT ⊢
              refine ⟨hL3 h3 (Keep.refl _), hI3, hT h3 (Keep.refl _) ?_⟩
              rintro ⟨_, o, k, h1, _⟩; simp at h1
            | ok so =>
              cases so with
              | none =>
                simp only [hs] at hL3 hT ⊢
                refine ⟨hL3 h3 (Keep.refl _), hI3, hT h3 (Keep.refl _) ?_⟩
                rintro ⟨_, o, k, h1, _⟩; simp at h1
              | some o =>
                simp only [hs] at hL3 hT ⊢
                by_cases he : isElement h3 o = true
                · simp only [he, if_true]
                  cases app with
                  | false =>
                    simp only [Bool.false_eq_true, if_false]
                    refine ⟨hL3 h3 (Keep.refl _), hI3, hT h3 (Keep.refl _) ?_⟩
                    rintro ⟨h0, _⟩; simp at h0
                  | true =>
                    simp only [if_true]
                    have hol := isElement_lt hI3 he
                    have hpl3 : pkg < h3.next := Nat.lt_of_lt_of_le hpl K3.next
                    have hpc3 : (h3.obj pkg).cls = .package := by rw [K3.cls pkg hpl]; exact hpc
                    have hI4 := inv_packageAppend hI3 hpl3 hpc3 hol
                    have K4 := keep_packageAppend h3 pkg o
                    have hE := packageAppend_entry (h := h3) (c := pkg) he
                    rcases hap : packageAppend h3 pkg o with ⟨h4, ao⟩
                    rw [hap] at hI4 K4 hE
                    simp only at hI4 K4 hE
                    have hgood : (⟨h2, pkg, name, deps, ds, true, h3, .ok (some o)⟩ : Call).good →
                        '/' ∉ name.toList → dictGet (h4.obj pkg).map name ≠ none := by
                      rintro ⟨_, o', k, h1, _, h3'⟩ _
                      simp only [Except.ok.injEq, Option.some.injEq] at h1
                      subst h1
                      simp only at h3'
                      rw [← h3']; exact hE.1
                    cases ao with
                    | ok u => exact ⟨hL3 h4 K4, hI4, hT h4 K4 hgood⟩
                    | error e => exact ⟨hL3 h4 K4, hI4, hT h4 K4 hgood⟩
                · simp only [he, if_false, Bool.false_eq_true]
                  refine ⟨hL3 h3 (Keep.refl _), hI3, hT h3 (Keep.refl _) ?_⟩
                  rintro ⟨_, o', k, h1, h2', _⟩
                  simp only [Except.ok.injEq, Option.some.injEq] at h1
                  subst h1
                  exact absurd (isElement_iff.mpr ⟨k, h2'⟩) he
  exact ⟨key.1, W.later key.1 key.2.1, key.2.2⟩

mutual
theorem apply_spec (w : Ws) (W : WsInv w) (kw : List String) : ∀ (t : Template),
    Later w (apply w kw t).1 ∧ WsInv (apply w kw t).1 ∧ (TraceInv w → TraceInv (apply w kw t).1)
  | .element name nsName role deps app create => by
    unfold apply
    have hd := applyDeps_spec w W deps
    rcases hq : applyDeps w deps with ⟨w1, o⟩
    rw [hq] at hd
    cases o with
    | error e => exact hd
    | ok ds =>
      simp only
      have hb := applyBody_spec w1 hd.2.1 kw name nsName role deps app create ds
      exact ⟨hd.1.trans hb.1, hb.2.1, fun T => hb.2.2 (hd.2.2 T)⟩
  | .generic body => by
    unfold apply
    simp only
    have K := keep_run (body w.heap kw).1 W.inv
    have L : Later w { w with heap := run w.heap (body w.heap kw).1 } := ⟨K, rfl, rfl, [], by simp⟩
    exact ⟨L, W.later L (inv_run _ W.inv), fun T => T.heap K⟩
  | .other => by
    unfold apply
    exact ⟨Later.refl w, W, id⟩

theorem applyDeps_spec (w : Ws) (W : WsInv w) : ∀ (ts : List Template),
    Later w (applyDeps w ts).1 ∧ WsInv (applyDeps w ts).1 ∧
      (TraceInv w → TraceInv (applyDeps w ts).1)
  | [] => by unfold applyDeps; exact ⟨Later.refl w, W, id⟩
  | t :: ts => by
    unfold applyDeps
    have ht := apply_spec w W [] t
    rcases hq : apply w [] t with ⟨w1, o⟩
    rw [hq] at ht
    cases o with
    | error e => exact ht
    | ok oo =>
      cases oo with
      | none => exact ht
      | some o =>
        simp only
        split
        · have hr := applyDeps_spec w1 ht.2.1 ts
          rcases hq2 : applyDeps w1 ts with ⟨w2, o2⟩
          rw [hq2] at hr
          cases o2 with
          | error e => exact ⟨ht.1.trans hr.1, hr.2.1, fun T => hr.2.2 (ht.2.2 T)⟩
          | ok ds => exact ⟨ht.1.trans hr.1, hr.2.1, fun T => hr.2.2 (ht.2.2 T)⟩
        · exact ht
end

theorem wrun_spec (ops : List WsOp) : ∀ (w : Ws), WsInv w →
    Later w (wrun w ops) ∧ WsInv (wrun w ops) ∧ (TraceInv w → TraceInv (wrun w ops)) := by
  induction ops with
  | nil => intro w W; exact ⟨Later.refl w, W, id⟩
  | cons o ops ih =>
    intro w W
    have hs : Later w (wstep w o) ∧ WsInv (wstep w o) ∧ (TraceInv w → TraceInv (wstep w o)) := by
      cases o with
      | apply t kw => exact apply_spec w W kw t
      | op o =>
        have K := keep_step W.inv o
        have L : Later w { w with heap := step w.heap o } := ⟨K, rfl, rfl, [], by simp⟩
        exact ⟨L, W.later L (inv_step W.inv o), fun T => T.heap K⟩
    have := ih _ hs.2.1
    exact ⟨hs.1.trans this.1, this.2.1, fun T => this.2.2 (hs.2.2 T)⟩

/-! ### A template whose element is there -/

mutual
/-- The template's element `o` and those of all its dependencies are in place. -/
def Est (w : Ws) : Template → Nat → Prop
  | .element name nsName role deps _ _, o => EstAll w deps ∧ ∃ ref pkg,
      packageRefByRole w.nss nsName role = .ok ref ∧
      collectionMake1 w.heap w.root ref.toList = (w.heap, .ok pkg) ∧
      (w.heap.obj pkg).cls = .package ∧ pkg < w.heap.next ∧ '/' ∉ name.toList ∧
      dictGet (w.heap.obj pkg).map name = some o ∧ o < w.heap.next
  | _, _ => False
def EstAll (w : Ws) : List Template → Prop
  | [] => True
  | t :: ts => (∃ o, Est w t o ∧ isElement w.heap o = true) ∧ EstAll w ts
end

mutual
theorem est_later {w w' : Ws} (W : WsInv w) (L : Keep w.heap w'.heap)
    (hroot : w'.root = w.root) (hnss : w'.nss = w.nss) : ∀ (t : Template) (o : Nat),
    Est w t o → Est w' t o
  | .element name nsName role deps app create, o, h => by
    unfold Est at h ⊢
    obtain ⟨h1, ref, pkg, h2, h3, h4, h5, h6, h7, h8⟩ := h
    refine ⟨estAll_later W L hroot hnss deps h1, ref, pkg, by rw [hnss]; exact h2, ?_, ?_,
      Nat.lt_of_lt_of_le h5 L.next, h6, L.map _ h5 _ _ h7,
      Nat.lt_of_lt_of_le h8 L.next⟩
    · rw [hroot]; exact collectionMake1_keep W.inv W.root_lt W.root_cls _ _ h3 _ L
    · rw [L.cls _ h5]; exact h4
  | .generic _, _, h => by simp [Est] at h
  | .other, _, h => by simp [Est] at h
theorem estAll_later {w w' : Ws} (W : WsInv w) (L : Keep w.heap w'.heap)
    (hroot : w'.root = w.root) (hnss : w'.nss = w.nss) : ∀ (ts : List Template),
    EstAll w ts → EstAll w' ts
  | [], _ => by simp [EstAll]
  | t :: ts, h => by
    unfold EstAll at h ⊢
    obtain ⟨⟨o, h1, h2⟩, h3⟩ := h
    refine ⟨⟨o, est_later W L hroot hnss t o h1, ?_⟩, estAll_later W L hroot hnss ts h3⟩
    have hlt := isElement_lt W.inv h2
    obtain ⟨k, hk⟩ := isElement_iff.mp h2
    exact isElement_iff.mpr ⟨k, by rw [L.cls _ hlt]; exact hk⟩
end

mutual
theorem est_apply (w : Ws) (kw : List String) : ∀ (t : Template) (o : Nat), Est w t o →
    apply w kw t = (w, .ok (some o))
  | .element name nsName role deps app create, o, h => by
    unfold Est at h
    obtain ⟨h1, ref, pkg, h2, h3, h4, h5, h6, h7, _⟩ := h
    obtain ⟨ds, hd⟩ := estAll_apply w deps h1
    unfold apply
    rw [hd]
    simp only [applyBody, h2, h3, h4, if_true, find_plain h4 h6, h7]
  | .generic _, _, h => by simp [Est] at h
  | .other, _, h => by simp [Est] at h
theorem estAll_apply (w : Ws) : ∀ (ts : List Template), EstAll w ts →
    ∃ ds, applyDeps w ts = (w, .ok ds)
  | [], _ => ⟨[], by simp [applyDeps]⟩
  | t :: ts, h => by
    unfold EstAll at h
    obtain ⟨⟨o, h1, h2⟩, h3⟩ := h
    obtain ⟨ds, hd⟩ := estAll_apply w ts h3
    refine ⟨o :: ds, ?_⟩
    unfold applyDeps
    rw [est_apply w [] t o h1]
    simp only [h2, if_true, hd]
end

mutual
/-- A proper template: an element template whose element is put into the package and whose create
method returns elements of the announced name; so are its dependencies. -/
def Proper : Template → Prop
  | .element name _ _ deps app create => ProperAll deps ∧ app = true ∧ '/' ∉ name.toList ∧
      ∀ h pkg ds kw o, (create h pkg ds kw).2 = .ok (some o) →
        ((run h (create h pkg ds kw).1).obj o).name = name
  | _ => False
def ProperAll : List Template → Prop
  | [] => True
  | t :: ts => Proper t ∧ ProperAll ts
end

theorem applyBody_est (w : Ws) (W : WsInv w) (kw : List String) (name nsName : String) (role : Role)
    (deps : List Template) (create : Heap → Nat → List Nat → List String → Script)
    (ds : List Nat) (hn : '/' ∉ name.toList)
    (hc : ∀ h pkg ds kw o, (create h pkg ds kw).2 = .ok (some o) →
        ((run h (create h pkg ds kw).1).obj o).name = name) (hdeps : EstAll w deps)
    (w' : Ws) (r : Option Nat)
    (hr : applyBody w kw name nsName role deps true create ds = (w', .ok r)) :
    ∃ o, r = some o ∧ Est w' (.element name nsName role deps true create) o := by
  have hL := applyBody_spec w W kw name nsName role deps true create ds
  simp only [hr] at hL
  obtain ⟨L, W', _⟩ := hL
  have hdeps' := estAll_later W L.keep L.root L.nss deps hdeps
  unfold applyBody at hr
  cases hp : packageRefByRole w.nss nsName role with
  | error e => simp [hp] at hr
  | ok ref =>
    simp only [hp] at hr
    obtain ⟨G, S⟩ := collectionMake1_spec W.inv W.root_lt W.root_cls ref.toList
    have hI := inv_collectionMake1 W.inv W.root_lt W.root_cls ref.toList
    rcases hm : collectionMake1 w.heap w.root ref.toList with ⟨h2, o⟩
    rw [hm] at hr G S hI
    cases o with
    | error e => simp at hr
    | ok pkg =>
      simp only at hr G S hI
      obtain ⟨s1, s2, hpc⟩ := S pkg rfl h2 (Grow.refl h2)
      have hpl : pkg < h2.next := by
        by_cases hlt : pkg < h2.next
        · exact hlt
        · rw [hI.fresh pkg (Nat.le_of_not_lt hlt)] at hpc; simp [Obj.blank] at hpc
      have hroot2 : w.root < h2.next := Nat.lt_of_lt_of_le W.root_lt G.next
      have hrootc2 : (h2.obj w.root).cls = .collection := by rw [G.cls _ W.root_lt]; exact W.root_cls
      rw [if_pos hpc, find_plain hpc hn] at hr
      cases hg : dictGet (h2.obj pkg).map name with
      | some o =>
        simp only [hg, Prod.mk.injEq, Except.ok.injEq] at hr
        obtain ⟨rfl, rfl⟩ := hr
        refine ⟨o, rfl, ?_⟩
        unfold Est
        exact ⟨hdeps', ref, pkg, hp, s1, hpc, hpl, hn, hg, map_lt hI hg⟩
      | none =>
        simp only [hg] at hr
        have hcc := hc h2 pkg ds kw
        have hI3 := inv_run (create h2 pkg ds kw).1 hI
        have K3 := keep_run (create h2 pkg ds kw).1 hI
        generalize create h2 pkg ds kw = s at hr hcc hI3 K3
        generalize run h2 s.1 = h3 at hr hcc hI3 K3
        cases hs : s.2 with
        | error e => simp [hs] at hr
        | ok so =>
          cases so with
          | none => simp [hs] at hr
          | some o =>
            simp only [hs] at hr
            have hname := hcc o hs
            by_cases he : isElement h3 o = true
            · simp only [he, if_true] at hr
              have hE := packageAppend_entry (h := h3) (c := pkg) he
              have K4 := keep_packageAppend h3 pkg o
              rcases hap : packageAppend h3 pkg o with ⟨h4, ao⟩
              rw [hap] at hr hE K4
              cases ao with
              | error e => simp at hr
              | ok u =>
                simp only [Prod.mk.injEq, Except.ok.injEq] at hr
                obtain ⟨rfl, rfl⟩ := hr
                refine ⟨o, rfl, ?_⟩
                have K := K3.trans K4
                unfold Est
                refine ⟨hdeps', ref, pkg, hp, ?_, ?_, Nat.lt_of_lt_of_le hpl K.next, hn, ?_, ?_⟩
                · exact collectionMake1_keep hI hroot2 hrootc2 _ _ s1 _ K
                · show (h4.obj pkg).cls = .package
                  rw [K.cls pkg hpl]; exact hpc
                · show dictGet (h4.obj pkg).map name = some o
                  rw [← hname]; exact hE.2.1 rfl
                · exact Nat.lt_of_lt_of_le (isElement_lt hI3 he) K4.next
            · simp [he] at hr

mutual
theorem apply_est (w : Ws) (W : WsInv w) (kw : List String) : ∀ (t : Template), Proper t →
    ∀ w' r, apply w kw t = (w', .ok r) → ∃ o, r = some o ∧ Est w' t o
  | .element name nsName role deps app create, hp, w', r, hr => by
    unfold Proper at hp
    obtain ⟨hpd, rfl, hn, hc⟩ := hp
    unfold apply at hr
    have hspec := applyDeps_spec w W deps
    rcases hd : applyDeps w deps with ⟨w1, o⟩
    rw [hd] at hr hspec
    cases o with
    | error e => simp at hr
    | ok ds =>
      simp only at hr
      have hE := (applyDeps_est w W deps hpd w1 ds hd).1
      exact applyBody_est w1 hspec.2.1 kw name nsName role deps create ds hn hc hE w' r hr
  | .generic _, hp, _, _, _ => by simp [Proper] at hp
  | .other, hp, _, _, _ => by simp [Proper] at hp
theorem applyDeps_est (w : Ws) (W : WsInv w) : ∀ (ts : List Template), ProperAll ts →
    ∀ w' ds, applyDeps w ts = (w', .ok ds) → EstAll w' ts ∧ ds.length = ts.length ∧
      ∀ i (h1 : i < ts.length) (h2 : i < ds.length), Est w' ts[i] ds[i] ∧
        isElement w'.heap ds[i] = true
  | [], _, w', ds, hr => by
    simp only [applyDeps, Prod.mk.injEq, Except.ok.injEq] at hr
    obtain ⟨rfl, rfl⟩ := hr
    simp [EstAll]
  | t :: ts, hp, w', ds, hr => by
    unfold ProperAll at hp
    unfold applyDeps at hr
    have hspec := apply_spec w W [] t
    rcases hq : apply w [] t with ⟨w1, o⟩
    rw [hq] at hr hspec
    cases o with
    | error e => simp at hr
    | ok oo =>
      cases oo with
      | none => simp at hr
      | some o =>
        simp only at hr
        obtain ⟨o', ho', hE⟩ := apply_est w W [] t hp.1 w1 (some o) hq
        simp only [Option.some.injEq] at ho'
        subst ho'
        by_cases he : isElement w1.heap o = true
        · simp only [he, if_true] at hr
          have hspec2 := applyDeps_spec w1 hspec.2.1 ts
          rcases hd : applyDeps w1 ts with ⟨w2, o2⟩
          rw [hd] at hr hspec2
          cases o2 with
          | error e => simp at hr
          | ok ds' =>
            simp only [Prod.mk.injEq, Except.ok.injEq] at hr
            obtain ⟨rfl, rfl⟩ := hr
            obtain ⟨i1, i2, i3⟩ := applyDeps_est w1 hspec.2.1 ts hp.2 w2 ds' hd
            have L := hspec2.1
            have hE2 := est_later hspec.2.1 L.keep L.root L.nss t o hE
            have hlt := isElement_lt hspec.2.1.inv he
            obtain ⟨k, hk⟩ := isElement_iff.mp he
            have he2 : isElement w2.heap o = true :=
              isElement_iff.mpr ⟨k, by rw [L.keep.cls _ hlt]; exact hk⟩
            refine ⟨?_, by simp [i2], ?_⟩
            · unfold EstAll; exact ⟨⟨o, hE2, he2⟩, i1⟩
            · intro i h1 h2
              cases i with
              | zero => exact ⟨hE2, he2⟩
              | succ i => exact i3 i (by simpa using h1) (by simpa using h2)
        · simp [he] at hr
end

/-! ### Dependencies at the time of a create call -/

/-- The dependencies of a recorded call were in place when create was called. -/
def CallDeps (root : Nat) (nss : Dict Namespace) (c : Call) : Prop :=
  ProperAll c.deps → c.depObjs.length = c.deps.length ∧
    ∀ i (h1 : i < c.deps.length) (h2 : i < c.depObjs.length),
      Est ⟨c.before, root, nss, []⟩ c.deps[i] c.depObjs[i] ∧
      isElement c.before c.depObjs[i] = true ∧ Inv c.before ∧
      WsInv ⟨c.before, root, nss, []⟩

def DepInv (w : Ws) : Prop := ∀ c ∈ w.trace, CallDeps w.root w.nss c

theorem applyBody_trace (w : Ws) (W : WsInv w) (kw : List String) (name nsName : String) (role : Role)
    (deps : List Template) (app : Bool) (create : Heap → Nat → List Nat → List String → Script)
    (ds : List Nat) :
    (applyBody w kw name nsName role deps app create ds).1.trace = w.trace ∨
    ∃ c, (applyBody w kw name nsName role deps app create ds).1.trace = w.trace ++ [c] ∧
      c.deps = deps ∧ c.depObjs = ds ∧ Keep w.heap c.before ∧ Inv c.before := by
  unfold applyBody
  cases hr : packageRefByRole w.nss nsName role with
  | error e => exact .inl rfl
  | ok ref =>
    simp only
    have hI := inv_collectionMake1 W.inv W.root_lt W.root_cls ref.toList
    have K := keep_grow (collectionMake1_spec W.inv W.root_lt W.root_cls ref.toList).1
    rcases hm : collectionMake1 w.heap w.root ref.toList with ⟨h2, o⟩
    rw [hm] at hI K
    cases o with
    | error e => exact .inl rfl
    | ok pkg =>
      simp only
      split
      · cases hf : find h2 pkg name with
        | error e => exact .inl rfl
        | ok fo =>
          cases fo with
          | some o => exact .inl rfl
          | none =>
            refine .inr ⟨⟨h2, pkg, name, deps, ds, app, run h2 (create h2 pkg ds kw).1,
              (create h2 pkg ds kw).2⟩, ?_, rfl, rfl, K, hI⟩
            simp only
            split
            · simp
            · simp
            · split
              · split
                · split <;> simp
                · simp
              · simp
      · exact .inl rfl

mutual
theorem apply_depInv (w : Ws) (W : WsInv w) (kw : List String) : ∀ (t : Template), DepInv w →
    DepInv (apply w kw t).1
  | .element name nsName role deps app create, D => by
    have hL := (apply_spec w W kw (.element name nsName role deps app create)).1
    unfold apply at hL ⊢
    have hspec := applyDeps_spec w W deps
    have hD := applyDeps_depInv w W deps D
    rcases hd : applyDeps w deps with ⟨w1, o⟩
    rw [hd] at hspec hD hL
    cases o with
    | error e => exact hD
    | ok ds =>
      simp only at hL ⊢
      have hb := applyBody_spec w1 hspec.2.1 kw name nsName role deps app create ds
      rcases applyBody_trace w1 hspec.2.1 kw name nsName role deps app create ds with h | ⟨c, h, h1, h2, h3, h4⟩
      · intro c hc
        rw [h] at hc
        rw [hb.1.root, hb.1.nss]
        exact hD c hc
      · intro c' hc'
        rw [h] at hc'
        rw [hb.1.root, hb.1.nss]
        rcases List.mem_append.mp hc' with hc' | hc'
        · exact hD c' hc'
        · rw [List.mem_singleton] at hc'
          subst hc'
          intro hp
          rw [h1] at hp
          obtain ⟨_, e2, e3⟩ := applyDeps_est w W deps hp w1 ds hd
          refine ⟨by rw [h1, h2, e2], ?_⟩
          intro i i1 i2
          simp only [h1, h2] at i1 i2 ⊢
          obtain ⟨e4, e5⟩ := e3 i i1 i2
          have L : Later w1 ⟨c'.before, w1.root, w1.nss, w1.trace⟩ := ⟨h3, rfl, rfl, [], by simp⟩
          have W2 := hspec.2.1.later L h4
          have hlt := isElement_lt hspec.2.1.inv e5
          obtain ⟨k, hk⟩ := isElement_iff.mp e5
          refine ⟨?_, isElement_iff.mpr ⟨k, by rw [h3.cls _ hlt]; exact hk⟩, h4,
            ⟨W2.inv, W2.root_lt, W2.root_cls⟩⟩
          exact est_later (w' := ⟨c'.before, w1.root, w1.nss, []⟩) hspec.2.1 h3 rfl rfl _ _ e4
  | .generic body, D => by
    unfold apply
    exact D
  | .other, D => by
    unfold apply
    exact D
theorem applyDeps_depInv (w : Ws) (W : WsInv w) : ∀ (ts : List Template), DepInv w →
    DepInv (applyDeps w ts).1
  | [], D => by unfold applyDeps; exact D
  | t :: ts, D => by
    unfold applyDeps
    have hspec := apply_spec w W [] t
    have ht := apply_depInv w W [] t D
    rcases hq : apply w [] t with ⟨w1, o⟩
    rw [hq] at ht hspec
    cases o with
    | error e => exact ht
    | ok oo =>
      cases oo with
      | none => exact ht
      | some o =>
        simp only
        split
        · have hr := applyDeps_depInv w1 hspec.2.1 ts ht
          rcases hq2 : applyDeps w1 ts with ⟨w2, o2⟩
          rw [hq2] at hr
          cases o2 with
          | error e => exact hr
          | ok ds => exact hr
        · exact ht
end

theorem wrun_depInv (ops : List WsOp) : ∀ (w : Ws), WsInv w → DepInv w → DepInv (wrun w ops) := by
  induction ops with
  | nil => intro w W D; exact D
  | cons o ops ih =>
    intro w W D
    have hs : WsInv (wstep w o) := (wrun_spec [o] w W).2.1
    refine ih _ hs ?_
    cases o with
    | apply t kw => exact apply_depInv w W kw t D
    | op o => exact D

/-! ### From the stored state to `find` -/

theorem mem_of_elemFind {h : Heap} {e : Nat} {k : ElemKind} {s : List Char} {x : Nat}
    (hf : elemFind h e k s = .ok (some x)) : x ∈ members h e := by
  have hfn : ∀ l n, firstNamed h l n = some x → x ∈ l := fun l n hx => List.mem_of_find?_eq_some hx
  unfold members
  cases k with
  | plain => simp [elemFind] at hf
  | implType =>
    simp only [elemFind] at hf
    split at hf
    · simp at hf
    · simp only [Except.ok.injEq] at hf
      simp [hfn _ _ hf]
  | swc =>
    simp only [elemFind, Except.ok.injEq] at hf
    simp [hfn _ _ hf]
  | modeGroup =>
    simp only [elemFind] at hf
    split at hf
    · rename_i y hy
      simp only [Except.ok.injEq, Option.some.injEq] at hf
      subst hf; simp [hfn _ _ hy]
    · simp only [Except.ok.injEq] at hf
      simp [hfn _ _ hf]
  | composition =>
    simp only [elemFind] at hf
    split at hf
    · rename_i y hy
      simp only [Except.ok.injEq, Option.some.injEq] at hf
      subst hf; simp [hfn _ _ hy]
    · split at hf
      · rename_i y hy
        simp only [Except.ok.injEq, Option.some.injEq] at hf
        subst hf; simp [hfn _ _ hy]
      · simp only [Except.ok.injEq] at hf
        simp [hfn _ _ hf]

/-- The element of an established template is found at the reference the template announces. -/
theorem est_find {w : Ws} (W : WsInv w) {name nsName : String} {role : Role} {deps : List Template}
    {app : Bool} {create : Heap → Nat → List Nat → List String → Script} {o : Nat}
    (hE : Est w (.element name nsName role deps app create) o) {place : List String}
    (hne : place ≠ []) (hg : ∀ n ∈ place, GoodName n) (hname : GoodName name)
    (href : packageRefByRole w.nss nsName role = .ok (absRef place)) :
    find w.heap w.root (absRef place ++ "/" ++ name) = .ok (some o) ∧
      Contains w.heap w.root (place ++ [name]) o := by
  unfold Est at hE
  obtain ⟨_, ref, pkg, h2, h3, h4, h5, h6, h7, _⟩ := hE
  rw [href] at h2
  simp only [Except.ok.injEq] at h2
  subst h2
  obtain ⟨_, S⟩ := collectionMake1_spec W.inv W.root_lt W.root_cls (absRef place).toList
  rw [h3] at S
  obtain ⟨_, hf, _⟩ := S pkg rfl w.heap (Grow.refl _)
  have hcont : IsContainer w.heap w.root := .inr W.root_cls
  have hC : Contains w.heap w.root place pkg := by
    rcases find_result W.inv (absRef_denotes place hne hg) hcont with ⟨x, h1, h2⟩ | ⟨_, h2⟩ |
      ⟨pre, post, e, k, rest, _, _, _, _, _, _, _, h2⟩
    · rw [hf] at h2
      simp only [Except.ok.injEq, Option.some.injEq] at h2
      rw [h2]; exact h1
    · rw [hf] at h2; simp at h2
    · rw [hf] at h2
      obtain ⟨_, k', hk⟩ := W.inv.members_lt e pkg (mem_of_elemFind h2.symm)
      rw [h4] at hk; simp at hk
  obtain ⟨hh, hn⟩ := (map_holds W.inv pkg name o).1 h7
  have hC2 := contains_snoc W.inv hC h4 hh
  rw [hn] at hC2
  refine ⟨?_, hC2⟩
  have e1 : absRef place ++ "/" ++ name = absRef (place ++ [name]) := by
    rw [absRef_append, absRef_cons, absRef_nil]; simp [String.append_assoc]
  rw [e1]
  refine find_of_contains W.inv (absRef_denotes _ (by simp) ?_) hC2
  intro n hn'
  rcases List.mem_append.mp hn' with h | h
  · exact hg n h
  · rw [List.mem_singleton] at h; subst h; exact hname

end Verif.Work
