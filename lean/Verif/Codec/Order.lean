import Verif.Codec.OrderCheck
/-
Files that are alike are read alike.
-/
set_option linter.unusedSimpArgs false
namespace Verif.Codec
open Verif.Py Verif.Xml Verif.Xml.Spec

/-! ### Elements that are read alike -/

abbrev RD := RDen Cls RM

/-- The same but for the text after the element. -/
structure SameDen (k k' : RD) : Prop where
  tag : k.tag = k'.tag
  attrs : k.attrs = k'.attrs
  text : k.text = k'.text
  read : k.read = k'.read
  kids : k.kids = k'.kids

inductive Agree : RD → RD → Prop
  | same {k k' : RD} (h : SameDen k k') : Agree k k'
  | record {k k' : RD} (ht : k.tag ∈ recordTags) (htag : k.tag = k'.tag)
      (hr : ∀ m, usable m k.tag = true → k.read m = k'.read m)
      (h : ∀ t, LookedFor t → (childOf t k.kids).isSome = (childOf t k'.kids).isSome)
      (hp : ∀ t a b, LookedFor t → childOf t k.kids = some a → childOf t k'.kids = some b →
        Agree a b) : Agree k k'
  | list {k k' : RD} (ht : k.tag ∈ listTags) (htag : k.tag = k'.tag)
      (hr : ∀ m, usable m k.tag = true → k.read m = k'.read m)
      (h : k.kids.length = k'.kids.length)
      (hp : ∀ (i : Nat) (a b : RD), k.kids[i]? = some a → k'.kids[i]? = some b → Agree a b) :
      Agree k k'

/-- The same children, by tag. -/
def KidsByTag (ks ks' : List RD) : Prop :=
  (∀ t, LookedFor t → (childOf t ks).isSome = (childOf t ks').isSome) ∧
  ∀ t a b, LookedFor t → childOf t ks = some a → childOf t ks' = some b → Agree a b

/-- The same children, in this order. -/
inductive KidsInOrder : List RD → List RD → Prop
  | nil : KidsInOrder [] []
  | cons {k k' : RD} {ks ks' : List RD} : Agree k k' → KidsInOrder ks ks' →
      KidsInOrder (k :: ks) (k' :: ks')

theorem kidsInOrder_of : ∀ {ks ks' : List RD}, ks.length = ks'.length →
    (∀ (i : Nat) (a b : RD), ks[i]? = some a → ks'[i]? = some b → Agree a b) → KidsInOrder ks ks'
  | [], [], _, _ => .nil
  | k :: ks, k' :: ks', h, hp =>
    .cons (hp 0 k k' rfl rfl)
      (kidsInOrder_of (by simpa using h) fun i a b ha hb => hp (i + 1) a b (by simpa using ha)
        (by simpa using hb))
  | [], _ :: _, h, _ => by simp at h
  | _ :: _, [], h, _ => by simp at h

theorem same_refl (k : RD) : SameDen k k := ⟨rfl, rfl, rfl, rfl, rfl⟩

theorem agree_tag {k k' : RD} (h : Agree k k') : k.tag = k'.tag := by
  cases h with
  | same h => exact h.tag
  | record _ h => exact h
  | list _ h => exact h

theorem inOrder_refl : ∀ ks : List RD, KidsInOrder ks ks
  | [] => .nil
  | k :: ks => .cons (.same (same_refl k)) (inOrder_refl ks)

theorem child_cons (t : String) (k : RD) (ks : List RD) :
    childOf t (k :: ks) = if k.tag = t then some k else childOf t ks := by
  unfold childOf
  by_cases h : k.tag = t <;> simp [h]

theorem child_tag {t : String} {k : RD} : ∀ {ks : List RD}, childOf t ks = some k → k.tag = t
  | [], h => by simp [childOf] at h
  | a :: ks, h => by
    rw [child_cons] at h
    split at h
    · cases h; assumption
    · exact child_tag h

theorem inOrder_byTag : ∀ {ks ks' : List RD}, KidsInOrder ks ks' → KidsByTag ks ks'
  | _, _, .nil => ⟨fun _ _ => rfl, fun t a b _ h => by simp [childOf] at h⟩
  | _, _, .cons (k := k) (k' := k') hk hs => by
    obtain ⟨h1, h2⟩ := inOrder_byTag hs
    have ht := agree_tag hk
    constructor
    · intro t hl
      rw [child_cons, child_cons, ← ht]
      split
      · rfl
      · exact h1 t hl
    · intro t a b hl ha hb
      rw [child_cons] at ha hb
      rw [← ht] at hb
      split at ha
      · rename_i h
        rw [if_pos h] at hb
        cases ha; cases hb
        exact hk
      · rename_i h
        rw [if_neg h] at hb
        exact h2 t a b hl ha hb

theorem inOrder_filter (p : String → Bool) : ∀ {ks ks' : List RD}, KidsInOrder ks ks' →
    KidsInOrder (ks.filter fun k => p k.tag) (ks'.filter fun k => p k.tag)
  | _, _, .nil => .nil
  | _, _, .cons (k := k) (k' := k') hk hs => by
    rw [List.filter_cons, List.filter_cons, ← agree_tag hk]
    split
    · exact .cons hk (inOrder_filter p hs)
    · exact inOrder_filter p hs

/-- What is below two elements that agree, by tag. -/
theorem agree_byTag {k k' : RD} (h : Agree k k') : KidsByTag k.kids k'.kids := by
  cases h with
  | same h => rw [h.kids]; exact inOrder_byTag (inOrder_refl _)
  | record _ _ _ h hp => exact ⟨h, hp⟩
  | list _ _ _ h hp => exact inOrder_byTag (kidsInOrder_of h hp)

/-- What is below two elements that agree, in order. -/
theorem agree_inOrder {k k' : RD} (h : Agree k k') (ht : k.tag ∉ recordTags) :
    KidsInOrder k.kids k'.kids := by
  cases h with
  | same h => rw [h.kids]; exact inOrder_refl _
  | record h => exact absurd h ht
  | list _ _ _ h hp => exact kidsInOrder_of h hp

theorem agree_exact {k k' : RD} (h : Agree k k') (ht : exact k.tag = true) : SameDen k k' := by
  simp only [exact, Bool.and_eq_true, decide_eq_true_eq] at ht
  cases h with
  | same h => exact h
  | record h => exact absurd h ht.1
  | list h => exact absurd h ht.2

theorem limit_same {k k' : RD} (h : SameDen k k') : readLimit k = readLimit k' := by
  unfold readLimit
  rw [h.text, h.attrs]

theorem atom_same {k k' : RD} (h : SameDen k k') (a : RAtom RM) : readAtom k a = readAtom k' a := by
  cases a with
  | conv c => simp only [readAtom, h.text]
  | meth m => simp only [readAtom, h.read]
  | limit => exact limit_same h

theorem read_agree {k k' : RD} (h : Agree k k') {m : RM} (hm : usable m k.tag = true) :
    k.read m = k'.read m := by
  cases h with
  | same h => rw [h.read]
  | record _ _ hr => exact hr m hm
  | list _ _ hr => exact hr m hm

theorem atom_agree {k k' : RD} (h : Agree k k') {a : RAtom RM} (ha : atomFits k.tag a = true) :
    readAtom k a = readAtom k' a := by
  cases a with
  | conv c => exact atom_same (agree_exact h ha) _
  | limit => exact atom_same (agree_exact h ha) _
  | meth m => simp only [readAtom, read_agree h ha]

theorem methFits_mono {x : RMethod Cls RM} (h : methFits false x = true) (b : Bool) :
    methFits b x = true := by
  cases x with
  | node c items =>
    simp only [methFits, List.all_eq_true] at h ⊢
    intro i hi
    have := h i hi
    cases i <;> simp_all [itemFits]
  | bad e => rfl
  | ref c d => simp [methFits] at h
  | mixed c i k ts s => simp [methFits] at h

theorem atom_any {t : String} {a : RAtom RM} (h : usableAny a = true) : atomFits t a = true := by
  cases a with
  | meth m =>
    simp only [usableAny, Bool.and_eq_true, Bool.not_eq_true'] at h
    simp only [atomFits, usable]
    rw [rm_fixed h.1 t "", methFits_mono h.2]
    simp
  | _ => simp [usableAny] at h

theorem pick_fits {ctx : Option String} {t : String} {alts : RAlts RM} {a : RAtom RM}
    (hf : altsFit ctx alts = true) (hc : ∀ c, ctx = some c → c = t) (h : pickTag t alts = some a) :
    atomFits t a = true := by
  induction alts with
  | nil => simp [pickTag] at h
  | cons x rest ih =>
    obtain ⟨x, b⟩ := x
    simp only [altsFit, List.all_cons, Bool.and_eq_true] at hf
    rw [pickTag] at h
    split at h
    · rename_i hx
      cases h
      rcases hx with rfl | rfl
      · cases ctx with
        | none => exact atom_any hf.1
        | some c => rw [← hc c rfl]; exact hf.1
      · exact hf.1
    · exact ih hf.2 h

theorem call_agree {ctx : Option String} {k k' : RD} (h : Agree k k') {alts : RAlts RM}
    (hf : altsFit ctx alts = true) (hc : ∀ c, ctx = some c → c = k.tag) (miss : Option PyErr) :
    readCall alts miss k = readCall alts miss k' := by
  unfold readCall
  rw [← agree_tag h]
  cases hp : pickTag k.tag alts with
  | none => rfl
  | some a =>
    simp only
    rw [atom_agree h (pick_fits hf hc hp)]

theorem list_agree {alts : RAlts RM} (hf : altsFit none alts = true) (miss : Option PyErr) :
    ∀ {ks ks' : List RD}, KidsInOrder ks ks' → readList alts miss ks = readList alts miss ks' := by
  intro ks ks' h
  unfold readList
  congr 1
  induction h with
  | nil => rfl
  | cons hk _ ih =>
    rw [List.map_cons, List.map_cons, ih]
    congr 1
    unfold readElem
    rw [call_agree hk hf (by simp)]

/-- A statement that looks children up by tag. -/
theorem item_agree {as : Attrs} {x x' : Option String} {ks ks' : List RD} (h : KidsByTag ks ks')
    {i : RItem RM} (hl : ∀ t ∈ askedBy i, LookedFor t) (hf : itemFits false i = true)
    (hc : itemCalls i = true) : readItem as x ks i = readItem as x' ks' i := by
  have key : ∀ t, LookedFor t → (childOf t ks = none ∧ childOf t ks' = none) ∨
      ∃ a b, childOf t ks = some a ∧ childOf t ks' = some b ∧ Agree a b ∧ a.tag = t := by
    intro t ht
    have h1 := h.1 t ht
    cases ha : childOf t ks with
    | none =>
      cases hb : childOf t ks' with
      | none => exact .inl ⟨rfl, rfl⟩
      | some b => rw [ha, hb] at h1; simp at h1
    | some a =>
      cases hb : childOf t ks' with
      | none => rw [ha, hb] at h1; simp at h1
      | some b => exact .inr ⟨a, b, rfl, rfl, h.2 t a b ht ha hb, child_tag ha⟩
  cases i with
  | text k c => simp [itemFits] at hf
  | noKids e => simp [itemFits] at hf
  | flat k alts miss => simp [itemFits] at hf
  | attr n k c r => rfl
  | required t k =>
    rcases key t (hl t (by simp [askedBy])) with ⟨ha, hb⟩ | ⟨a, b, ha, hb, hab, ht⟩
    · simp only [readItem, ha, hb]
    · subst ht
      simp only [readItem, ha, hb, (agree_exact hab hc).text]
  | one t k inner alts miss c =>
    have hlt : LookedFor t := hl t (by cases inner <;> simp [askedBy])
    rcases key t hlt with ⟨ha, hb⟩ | ⟨a, b, ha, hb, hab, ht⟩
    · simp only [readItem, ha, hb]
    · simp only [readItem, ha, hb]
      cases inner with
      | self =>
        simp only [Inner.get]
        rw [call_agree hab (ctx := some t) hc (by simp [ht])]
      | first =>
        simp only [itemCalls, Bool.and_eq_true, decide_eq_true_eq] at hc
        have ho := agree_inOrder hab (by rw [ht]; exact hc.1)
        simp only [Inner.get]
        cases hx : a.kids with
        | nil =>
          rw [hx] at ho
          cases hy : b.kids with
          | nil => rfl
          | cons _ _ => rw [hy] at ho; cases ho
        | cons u us =>
          rw [hx] at ho
          cases hy : b.kids with
          | nil => rw [hy] at ho; cases ho
          | cons w ws =>
            rw [hy] at ho
            cases ho with
            | cons hu _ =>
              simp only [List.head?_cons]
              rw [call_agree hu hc.2 (by simp)]
      | tag t' =>
        simp only [itemCalls] at hc
        have hlt' : LookedFor t' := hl t' (by simp [askedBy])
        obtain ⟨h1, h2⟩ := agree_byTag hab
        simp only [Inner.get]
        cases hx : childOf t' a.kids with
        | none =>
          cases hy : childOf t' b.kids with
          | none => rfl
          | some w => have := h1 t' hlt'; rw [hx, hy] at this; simp at this
        | some u =>
          cases hy : childOf t' b.kids with
          | none => have := h1 t' hlt'; rw [hx, hy] at this; simp at this
          | some w =>
            simp only
            rw [call_agree (h2 t' u w hlt' hx hy) (ctx := some t') hc (by simp [child_tag hx])]
  | many t k alts miss mx =>
    simp only [itemCalls, Bool.and_eq_true, decide_eq_true_eq] at hc
    rcases key t (hl t (by simp [askedBy])) with ⟨ha, hb⟩ | ⟨a, b, ha, hb, hab, ht⟩
    · simp only [readItem, ha, hb]
    · simp only [readItem, ha, hb]
      rw [list_agree hc.2 miss (agree_inOrder hab (by rw [ht]; exact hc.1))]
  | choice k alts r =>
    simp only [itemCalls, List.all_eq_true] at hc
    have hfm : ∀ alts' : List (String × RAtom RM), (∀ ta ∈ alts', ta ∈ alts) →
        (alts'.filterMap fun a => (childOf a.1 ks).map fun k => readAtom k a.2) =
        (alts'.filterMap fun a => (childOf a.1 ks').map fun k => readAtom k a.2) := by
      intro alts' hs
      induction alts' with
      | nil => rfl
      | cons ta rest ih =>
        have hta := hs ta (by simp)
        rw [List.filterMap_cons, List.filterMap_cons, ih fun x hx => hs x (by simp [hx])]
        rcases key ta.1 (hl _ (by simpa [askedBy] using ⟨_, hta⟩)) with ⟨ha, hb⟩ | ⟨a, b, ha, hb, hab, ht⟩
        · rw [ha, hb]
        · rw [ha, hb]
          simp only [Option.map_some]
          rw [atom_agree hab (by rw [ht]; exact hc ta hta)]
    have hmap : ∀ kk : List RD,
        (alts.filterMap fun a => (childOf a.1 kk).map fun k => readAtom k a.2) =
        (alts.filterMap fun a => (childOf a.1 kk).map fun k => (k, a.2)).map
          fun p => readAtom p.1 p.2 := by
      intro kk
      rw [List.map_filterMap]
      congr 1
      funext a
      simp [Function.comp_def]
    have hcase : ∀ (x : Option String) (kk : List RD), readItem as x kk (.choice k alts r) =
        match (alts.filterMap fun a => (childOf a.1 kk).map fun k => readAtom k a.2) with
        | [] => if r then .error .parseError else .ok []
        | [v] =>
          match v with
          | .ok v => .ok [(k, v)]
          | .error e => .error e
        | _ => .error .parseError := by
      intro x kk
      rw [hmap, readItem]
      generalize (alts.filterMap fun a => (childOf a.1 kk).map fun k => (k, a.2)) = l
      match l with
      | [] => rfl
      | [p] =>
        obtain ⟨p, a⟩ := p
        simp only [List.map_cons, List.map_nil]
        cases readAtom p a <;> rfl
      | p :: q :: l => rfl
    rw [hcase, hcase, hfm alts fun _ h => h]
  | admin =>
    rcases key "ADMIN-DATA" (hl _ (by simp [askedBy])) with ⟨ha, hb⟩ | ⟨a, b, ha, hb, hab, ht⟩
    · simp only [readItem, ha, hb]
    · simp only [readItem, ha, hb]
      have := (agree_exact hab (by rw [ht]; exact hc)).kids
      simp only [readAdmin, this]

/-- A statement that may also look at the list of children. -/
theorem item_agree_list {as : Attrs} {x x' : Option String} {ks ks' : List RD}
    (h : KidsInOrder ks ks') {i : RItem RM} (hl : ∀ t ∈ askedBy i, LookedFor t)
    (hf : itemFits true i = true) (hc : itemCalls i = true) :
    readItem as x ks i = readItem as x' ks' i := by
  by_cases hb : itemFits false i = true
  · exact item_agree (inOrder_byTag h) hl hb hc
  · cases i with
    | flat k alts miss =>
      simp only [readItem]
      rw [list_agree hc miss h]
    | _ => simp_all [itemFits]

theorem run_agree {m : RM} {t : String} {as : Attrs} {x x' : Option String} {ks ks' : List RD}
    (hu : usable m t = true) (hk : (t ∈ recordTags ∧ KidsByTag ks ks') ∨
      (t ∈ listTags ∧ KidsInOrder ks ks')) :
    runReader tables m t as x ks = runReader tables m t as x' ks' := by
  have hcalls := calls_ok m t
  have hfit : methFits (decide (t ∉ recordTags)) (rm m t) = true := by
    rcases hk with ⟨h, -⟩ | ⟨h, -⟩
    · simpa [usable, exact, h] using hu
    · simpa [usable, exact, h] using hu
  cases hm : rm m t with
  | bad e =>
    have hm' : tables.rm m t = .bad e := hm
    unfold runReader
    rw [hm']
  | ref c d => rw [hm] at hfit; simp [methFits] at hfit
  | mixed c i k ts s => rw [hm] at hfit; simp [methFits] at hfit
  | node c items =>
    rw [hm] at hfit hcalls
    simp only [methFits, methCalls, List.all_eq_true] at hfit hcalls
    have hask : ∀ i ∈ items, ∀ u ∈ askedBy i, LookedFor u := fun i hi u hu =>
      .inr (.inr ⟨m, t, c, items, hm, i, hi, hu⟩)
    have : items.map (readItem as x ks) = items.map (readItem as x' ks') := by
      apply List.map_congr_left
      intro i hi
      rcases hk with ⟨h, hk⟩ | ⟨h, hk⟩
      · exact item_agree hk (hask i hi) (by simpa [h] using hfit i hi) (hcalls i hi)
      · exact item_agree_list hk (hask i hi)
          (by simpa [list_not_record h] using hfit i hi) (hcalls i hi)
    have hm' : tables.rm m t = .node c items := hm
    unfold runReader
    rw [hm']
    simp only [this]

/-! ### From parsed files to what the methods make of them -/

theorem rden_elem (tl : Option String) (t : String) (as : Attrs) (ds : List Dom) :
    rden tables tl (.elem t as ds) = some (.mk t as (leadText ds) tl
      (fun m => runReader tables m t as (leadText ds) (rdenKids tables ds)) (rdenKids tables ds)) := by
  rw [rden]

/-- The children that were read are the elements. -/
inductive Reads : List Dom → List RD → Prop
  | nil : Reads [] []
  | cons {d : Dom} {tl : Option String} {k : RD} {ds : List Dom} {ks : List RD} :
      rden tables tl d = some k → Reads ds ks → Reads (d :: ds) (k :: ks)

theorem reads_elems : ∀ ds : List Dom, Reads (elemsOf ds) (rdenKids tables ds)
  | [] => by rw [elemsOf, rdenKids]; exact .nil
  | .elem t as xs :: ds => by
    rw [elemsOf, rdenKids, rden_elem]
    exact .cons (rden_elem _ _ _ _) (reads_elems ds)
  | .text s :: ds => by
    rw [elemsOf, rdenKids, rden]
    exact reads_elems ds

theorem reads_length {ds : List Dom} {ks : List RD} (h : Reads ds ks) : ks.length = ds.length := by
  induction h with
  | nil => rfl
  | cons _ _ ih => simp [ih]

theorem reads_get {ds : List Dom} {ks : List RD} (h : Reads ds ks) : ∀ {i : Nat} {k : RD},
    ks[i]? = some k → ∃ d tl, ds[i]? = some d ∧ rden tables tl d = some k := by
  induction h with
  | nil => intro i k h; simp at h
  | cons hd _ ih =>
    intro i k h
    cases i with
    | zero => cases h; exact ⟨_, _, rfl, hd⟩
    | succ i => simpa using ih (by simpa using h)

theorem rden_hasTag {t : String} {tl : Option String} {d : Dom} {k : RD}
    (h : rden tables tl d = some k) : hasTag t d = decide (k.tag = t) := by
  cases d with
  | text s => rw [rden] at h; cases h
  | elem u as ds => rw [rden_elem] at h; cases h; rfl

theorem child_first (t : String) : ∀ ds : List Dom,
    (childOf t (rdenKids tables ds)).isSome = (firstElem t ds).isSome ∧
    ∀ k, childOf t (rdenKids tables ds) = some k →
      ∃ d tl, firstElem t ds = some d ∧ rden tables tl d = some k
  | [] => by rw [rdenKids]; simp [childOf, firstElem]
  | d :: ds => by
    have ih := child_first t ds
    rw [rdenKids, firstElem]
    cases h : rden tables (leadText ds) d with
    | none =>
      have : hasTag t d = false := by
        cases d with
        | text s => rfl
        | elem u as ds => rw [rden_elem] at h; cases h
      simpa [this] using ih
    | some k =>
      simp only
      rw [child_cons, rden_hasTag h]
      by_cases hk : k.tag = t
      · simp only [hk, if_true, decide_true, Option.isSome_some, true_and]
        intro k' hk'
        cases hk'
        exact ⟨d, _, rfl, h⟩
      · simpa [hk] using ih

theorem agree_of_alike {d d' : Dom} (h : Alike d d') : ∀ {tl tl' : Option String} {k k' : RD},
    rden tables tl d = some k → rden tables tl' d' = some k' → Agree k k' := by
  induction h with
  | refl d =>
    intro tl tl' k k' h h'
    cases d with
    | text s => rw [rden] at h; cases h
    | elem t as ds =>
      rw [rden_elem] at h h'
      cases h; cases h'
      exact .same ⟨rfl, rfl, rfl, rfl, rfl⟩
  | @record t as ds ds' ht h1 h2 ih =>
    intro tl tl' k k' h h'
    rw [rden_elem] at h h'
    cases h; cases h'
    have hk : KidsByTag (rdenKids tables ds) (rdenKids tables ds') := by
      constructor
      · intro u hu
        rw [(child_first u ds).1, (child_first u ds').1]
        exact h1 u hu
      · intro u a b hu ha hb
        obtain ⟨e, tl, he, ha⟩ := (child_first u ds).2 a ha
        obtain ⟨e', tl', he', hb⟩ := (child_first u ds').2 b hb
        exact ih u e e' hu he he' ha hb
    exact .record ht rfl (fun m hm => run_agree hm (.inl ⟨ht, hk⟩)) hk.1 hk.2
  | @list t as ds ds' ht h1 h2 ih =>
    intro tl tl' k k' h h'
    rw [rden_elem] at h h'
    cases h; cases h'
    have hl : (rdenKids tables ds).length = (rdenKids tables ds').length := by
      rw [reads_length (reads_elems ds), reads_length (reads_elems ds'), h1]
    have hp : ∀ (i : Nat) (a b : RD), (rdenKids tables ds)[i]? = some a →
        (rdenKids tables ds')[i]? = some b → Agree a b := by
      intro i a b ha hb
      obtain ⟨e, tl, he, ha⟩ := reads_get (reads_elems ds) ha
      obtain ⟨e', tl', he', hb⟩ := reads_get (reads_elems ds') hb
      exact ih i e e' he he' ha hb
    exact .list ht rfl (fun m hm => run_agree hm (.inr ⟨ht, kidsInOrder_of hl hp⟩)) hl hp

/-- Elements that are alike are read alike by every method that may be used on them. -/
theorem readWith_alike {m : RM} {t : String} {as as' : Attrs} {ds ds' : List Dom}
    (h : Alike (.elem t as ds) (.elem t as' ds')) (hm : usable m t = true) :
    readWith tables m (.elem t as ds) = readWith tables m (.elem t as' ds') := by
  unfold readWith
  have := agree_of_alike h (rden_elem none t as ds) (rden_elem none t as' ds')
  rw [rden_elem, rden_elem]
  exact read_agree this hm

theorem alike_tag {t t' : String} {as as' : Attrs} {ds ds' : List Dom}
    (h : Alike (.elem t as ds) (.elem t' as' ds')) : t = t' ∧ as = as' := by
  cases h <;> exact ⟨rfl, rfl⟩

/-! ### Packages and documents -/

theorem pden_elem (stop : Bool) (tl : Option String) (t : String) (as : Attrs) (ds : List Dom) :
    ∃ k, rden tables tl (.elem t as ds) = some k ∧
      pden stop tl (.elem t as ds) = some (.mk k (readPackage stop k (pdenKids stop ds))
        (pdenKids stop ds)) := by
  refine ⟨_, rden_elem tl t as ds, ?_⟩
  rw [pden, rden_elem]

/-- Parsed elements that agree as packages. -/
inductive PAgree : PDen → PDen → Prop
  | mk {p p' : PDen} (h : Agree p.den p'.den) (hpkg : p.tag = "AR-PACKAGE" → p.pkg = p'.pkg)
      (hlen : p.tag ∉ recordTags → p.kids.length = p'.kids.length)
      (hord : p.tag ∉ recordTags → ∀ (i : Nat) (a b : PDen), p.kids[i]? = some a →
        p'.kids[i]? = some b → PAgree a b) : PAgree p p'

inductive PKids : List PDen → List PDen → Prop
  | nil : PKids [] []
  | cons {k k' : PDen} {ks ks' : List PDen} : PAgree k k' → PKids ks ks' →
      PKids (k :: ks) (k' :: ks')

theorem pkids_of : ∀ {ks ks' : List PDen}, ks.length = ks'.length →
    (∀ (i : Nat) (a b : PDen), ks[i]? = some a → ks'[i]? = some b → PAgree a b) → PKids ks ks'
  | [], [], _, _ => .nil
  | k :: ks, k' :: ks', h, hp =>
    .cons (hp 0 k k' rfl rfl)
      (pkids_of (by simpa using h) fun i a b ha hb => hp (i + 1) a b (by simpa using ha)
        (by simpa using hb))
  | [], _ :: _, h, _ => by simp at h
  | _ :: _, [], h, _ => by simp at h

theorem pagree_tag {p p' : PDen} (h : PAgree p p') : p.tag = p'.tag := by
  cases h with
  | mk h => exact agree_tag h

theorem pagree_kids {p p' : PDen} (h : PAgree p p') (ht : p.tag ∉ recordTags) :
    PKids p.kids p'.kids := by
  cases h with
  | mk h hpkg hlen hord => exact pkids_of (hlen ht) (hord ht)

theorem pkids_filter (t : String) : ∀ {ks ks' : List PDen}, PKids ks ks' →
    PKids (ks.filter fun k => k.tag = t) (ks'.filter fun k => k.tag = t)
  | _, _, .nil => .nil
  | _, _, .cons (k := k) (k' := k') hk hs => by
    rw [List.filter_cons, List.filter_cons, ← pagree_tag hk]
    split
    · exact .cons hk (pkids_filter t hs)
    · exact pkids_filter t hs

theorem pkids_dens : ∀ {ks ks' : List PDen}, PKids ks ks' →
    KidsInOrder (ks.map PDen.den) (ks'.map PDen.den)
  | _, _, .nil => .nil
  | _, _, .cons hk hs => by
    cases hk with
    | mk h => exact .cons h (pkids_dens hs)

theorem pkids_append {as as' bs bs' : List PDen} (h : PKids as as') (h' : PKids bs bs') :
    PKids (as ++ bs) (as' ++ bs') := by
  induction h with
  | nil => exact h'
  | cons hk _ ih => exact .cons hk ih

/-- The sub-packages of packages that agree. -/
theorem subs_agree {ks ks' : List PDen} (h : PKids ks ks') (ht : ∀ k ∈ ks, k.tag = "AR-PACKAGE") :
    ∀ taken, readSubs taken ks = readSubs taken ks' ∧ readRoot taken ks = readRoot taken ks' := by
  induction h with
  | nil => intro taken; exact ⟨rfl, rfl⟩
  | @cons k k' ks ks' hk _ ih =>
    intro taken
    have hpk : k.pkg = k'.pkg := by
      cases hk with
      | mk _ hpkg => exact hpkg (ht k (by simp))
    have ih := ih fun k hk => ht k (by simp [hk])
    rw [readSubs, readSubs, readRoot, readRoot, hpk]
    constructor
    · cases k'.pkg with
      | error e => rfl
      | ok p => simp only [(ih _).1]
    · cases k'.pkg with
      | error e => rfl
      | ok p => simp only [(ih _).2]

theorem collectable_usable : (readerCollectable.all fun tm => usable tm.2 tm.1) = true := by
  decide +kernel

theorem dictGet_mem' {α : Type} {l : List (String × α)} {k : String} {v : α}
    (h : dictGet l k = some v) : (k, v) ∈ l := by
  induction l with
  | nil => simp [dictGet] at h
  | cons x rest ih =>
    obtain ⟨a, b⟩ := x
    rw [dictGet] at h
    split at h
    · rename_i hx
      cases h
      subst hx
      simp
    · exact List.mem_cons_of_mem _ (ih h)

theorem elements_agree {stop : Bool} {ks ks' : List RD} (h : KidsInOrder ks ks') :
    ∀ acc, readElements stop acc ks = readElements stop acc ks' := by
  induction h with
  | nil => intro acc; rfl
  | @cons k k' ks ks' hk _ ih =>
    intro acc
    rw [readElements, readElements, ← agree_tag hk]
    cases hm : dictGet readerCollectable k.tag with
    | none => exact ih acc
    | some m =>
      have hu : usable m k.tag = true :=
        List.all_eq_true.1 collectable_usable (k.tag, m) (dictGet_mem' hm)
      simp only [← read_agree hk hu, ih]

theorem childP_cons (t : String) (k : PDen) (ks : List PDen) :
    childP t (k :: ks) = if k.tag = t then some k else childP t ks := by
  unfold childP
  by_cases h : k.tag = t <;> simp [h]

theorem childP_first (stop : Bool) (t : String) : ∀ ds : List Dom,
    (childP t (pdenKids stop ds)).isSome = (firstElem t ds).isSome ∧
    ∀ p, childP t (pdenKids stop ds) = some p →
      p.tag = t ∧ ∃ d tl, firstElem t ds = some d ∧ pden stop tl d = some p
  | [] => by rw [pdenKids]; simp [childP, firstElem]
  | d :: ds => by
    have ih := childP_first stop t ds
    rw [pdenKids, firstElem]
    cases d with
    | text s =>
      rw [pden]
      simpa [hasTag] using ih
    | elem u as xs =>
      obtain ⟨k, hk, hp⟩ := pden_elem stop (leadText ds) u as xs
      rw [hp]
      simp only
      rw [childP_cons, rden_hasTag hk]
      by_cases hu : k.tag = t
      · simp only [PDen.tag, PDen.den, hu, if_true, decide_true, Option.isSome_some, true_and]
        intro p' hp'
        cases hp'
        exact ⟨hu, _, _, rfl, hp⟩
      · have : ¬ PDen.tag (.mk k (readPackage stop k (pdenKids stop xs)) (pdenKids stop xs)) = t := hu
        simpa [hu, this] using ih

inductive PReads (stop : Bool) : List Dom → List PDen → Prop
  | nil : PReads stop [] []
  | cons {d : Dom} {tl : Option String} {k : PDen} {ds : List Dom} {ks : List PDen} :
      pden stop tl d = some k → PReads stop ds ks → PReads stop (d :: ds) (k :: ks)

theorem preads_elems (stop : Bool) : ∀ ds : List Dom, PReads stop (elemsOf ds) (pdenKids stop ds)
  | [] => by rw [elemsOf, pdenKids]; exact .nil
  | .elem t as xs :: ds => by
    obtain ⟨k, hk, hp⟩ := pden_elem stop (leadText ds) t as xs
    rw [elemsOf, pdenKids, hp]
    exact .cons hp (preads_elems stop ds)
  | .text s :: ds => by
    rw [elemsOf, pdenKids, pden]
    exact preads_elems stop ds

theorem preads_length {stop : Bool} {ds : List Dom} {ks : List PDen} (h : PReads stop ds ks) :
    ks.length = ds.length := by
  induction h with
  | nil => rfl
  | cons _ _ ih => simp [ih]

theorem preads_get {stop : Bool} {ds : List Dom} {ks : List PDen} (h : PReads stop ds ks) :
    ∀ {i : Nat} {k : PDen}, ks[i]? = some k → ∃ d tl, ds[i]? = some d ∧ pden stop tl d = some k := by
  induction h with
  | nil => intro i k h; simp at h
  | cons hd _ ih =>
    intro i k h
    cases i with
    | zero => cases h; exact ⟨_, _, rfl, hd⟩
    | succ i => simpa using ih (by simpa using h)

theorem package_usable : usable .package "AR-PACKAGE" = true := by decide +kernel

theorem tags_not_record : "ELEMENTS" ∉ recordTags ∧ "AR-PACKAGES" ∉ recordTags ∧
    "AR-PACKAGE" ∈ recordTags ∧ "AUTOSAR" ∉ recordTags := by decide +kernel

/-- Packages with the same parts. -/
theorem package_agree {stop : Bool} {k k' : RD} {ps ps' : List PDen} (h : Agree k k')
    (ht : k.tag = "AR-PACKAGE")
    (hk : ∀ t, LookedFor t → (childP t ps = none ∧ childP t ps' = none) ∨
      ∃ a b, childP t ps = some a ∧ childP t ps' = some b ∧ PAgree a b ∧ a.tag = t) :
    readPackage stop k ps = readPackage stop k' ps' := by
  have hread := read_agree h (m := .package) (by rw [ht]; exact package_usable)
  have he : readElementsOf stop ps = readElementsOf stop ps' := by
    unfold readElementsOf
    rcases hk "ELEMENTS" (.inl rfl) with ⟨ha, hb⟩ | ⟨a, b, ha, hb, hab, htag⟩
    · rw [ha, hb]
    · rw [ha, hb]
      exact elements_agree (pkids_dens (pagree_kids hab (by rw [htag]; exact tags_not_record.1))) []
  unfold readPackage
  rw [← hread, he]
  rcases hk "AR-PACKAGES" (.inr (.inl rfl)) with ⟨ha, hb⟩ | ⟨a, b, ha, hb, hab, htag⟩
  · rw [ha, hb]
  · rw [ha, hb]
    have := fun taken => (subs_agree (pkids_filter "AR-PACKAGE"
      (pagree_kids hab (by rw [htag]; exact tags_not_record.2.1)))
      (fun k hk => by simpa using (List.mem_filter.1 hk).2) taken).1
    simp only [this]

theorem pden_parts {stop : Bool} {tl : Option String} {d : Dom} {p : PDen}
    (h : pden stop tl d = some p) : rden tables tl d = some p.den ∧
      ∃ t as ds, d = .elem t as ds ∧ p.tag = t ∧ p.kids = pdenKids stop ds ∧
        p.pkg = readPackage stop p.den (pdenKids stop ds) := by
  cases d with
  | text s => rw [pden] at h; cases h
  | elem t as ds =>
    obtain ⟨k, hk, hp⟩ := pden_elem stop tl t as ds
    rw [hp] at h
    cases h
    refine ⟨hk, t, as, ds, rfl, ?_, rfl, rfl⟩
    rw [rden_elem] at hk
    cases hk
    rfl

theorem read_same {stop : Bool} {k k' : RD} (h : SameDen k k') (ps : List PDen) :
    readPackage stop k ps = readPackage stop k' ps := by
  unfold readPackage
  rw [h.read]

theorem pagree_same {p p' : PDen} (h : SameDen p.den p'.den) (hpkg : p.pkg = p'.pkg)
    (hkids : p.kids = p'.kids) (hrec : ∀ q ∈ p.kids, PAgree q q) : PAgree p p' := by
  refine .mk (.same h) (fun _ => hpkg) (fun _ => by rw [hkids]) ?_
  intro _ i a b ha hb
  rw [hkids] at ha
  rw [ha] at hb
  cases hb
  exact hrec a (by rw [hkids]; exact List.mem_of_getElem? ha)

mutual
theorem pagree_refl : ∀ p : PDen, PAgree p p
  | .mk _ _ ks => pagree_same (same_refl _) rfl rfl (pagree_refls ks)
theorem pagree_refls : ∀ ks : List PDen, ∀ q ∈ ks, PAgree q q
  | [], _, h => by simp at h
  | k :: ks, q, h => by
    rcases List.mem_cons.1 h with h | h
    · rw [h]
      exact pagree_refl k
    · exact pagree_refls ks q h
end

theorem pagree_of_alike {stop : Bool} {d d' : Dom} (h : Alike d d') :
    ∀ {tl tl' : Option String} {p p' : PDen},
      pden stop tl d = some p → pden stop tl' d' = some p' → PAgree p p' := by
  induction h with
  | refl d =>
    intro tl tl' p p' h h'
    obtain ⟨h1, t, as, ds, rfl, h3, h4, h5⟩ := pden_parts h
    obtain ⟨h1', t', as', ds', hd, h3', h4', h5'⟩ := pden_parts h'
    cases hd
    rw [rden_elem] at h1 h1'
    have hsame : SameDen p.den p'.den := by
      cases p; cases p'
      simp only [PDen.den, Option.some.injEq] at h1 h1' ⊢
      subst h1; subst h1'
      exact ⟨rfl, rfl, rfl, rfl, rfl⟩
    exact pagree_same hsame (by rw [h5, h5', read_same hsame]) (by rw [h4, h4'])
      fun q _ => pagree_refl q
  | @record t as ds ds' ht h1 h2 ih =>
    intro tl tl' p p' h h'
    obtain ⟨r1, _, _, _, hd, r3, r4, r5⟩ := pden_parts h
    obtain ⟨r1', _, _, _, hd', r3', r4', r5'⟩ := pden_parts h'
    cases hd; cases hd'
    have hden := agree_of_alike (.record ht h1 h2) r1 r1'
    refine .mk hden (fun htag => ?_) (fun hn => absurd (r3 ▸ ht) hn) (fun hn => absurd (r3 ▸ ht) hn)
    rw [r5, r5']
    apply package_agree hden htag
    intro u hu
    obtain ⟨a1, a2⟩ := childP_first stop u ds
    obtain ⟨b1, b2⟩ := childP_first stop u ds'
    have h1u := h1 u hu
    rw [← a1, ← b1] at h1u
    cases ha : childP u (pdenKids stop ds) with
    | none =>
      cases hb : childP u (pdenKids stop ds') with
      | none => exact .inl ⟨rfl, rfl⟩
      | some b => rw [ha, hb] at h1u; simp at h1u
    | some a =>
      cases hb : childP u (pdenKids stop ds') with
      | none => rw [ha, hb] at h1u; simp at h1u
      | some b =>
        obtain ⟨hat, e, _, he, hpe⟩ := a2 a ha
        obtain ⟨-, e', _, he', hpe'⟩ := b2 b hb
        exact .inr ⟨a, b, rfl, rfl, ih u e e' hu he he' hpe hpe', hat⟩
  | @list t as ds ds' ht h1 h2 ih =>
    intro tl tl' p p' h h'
    obtain ⟨r1, _, _, _, hd, r3, r4, r5⟩ := pden_parts h
    obtain ⟨r1', _, _, _, hd', r3', r4', r5'⟩ := pden_parts h'
    cases hd; cases hd'
    have hden := agree_of_alike (.list ht h1 h2) r1 r1'
    refine .mk hden (fun htag => ?_) (fun _ => ?_) ?_
    · rw [r3] at htag
      subst htag
      exact absurd tags_not_record.2.2.1 (list_not_record ht)
    · rw [r4, r4', preads_length (preads_elems stop ds), preads_length (preads_elems stop ds'), h1]
    · intro _ i a b ha hb
      rw [r4] at ha
      rw [r4'] at hb
      obtain ⟨e, _, he, hpe⟩ := preads_get (preads_elems stop ds) ha
      obtain ⟨e', _, he', hpe'⟩ := preads_get (preads_elems stop ds') hb
      exact ih i e e' he he' hpe hpe'

theorem root_agree {ks ks' : List PDen} (h : PKids ks ks') :
    PKids ((ks.filter fun k => k.tag = "AR-PACKAGES").flatMap fun k =>
        k.kids.filter fun k => k.tag = "AR-PACKAGE")
      ((ks'.filter fun k => k.tag = "AR-PACKAGES").flatMap fun k =>
        k.kids.filter fun k => k.tag = "AR-PACKAGE") := by
  induction h with
  | nil => exact .nil
  | @cons k k' ks ks' hk _ ih =>
    rw [List.filter_cons, List.filter_cons, ← pagree_tag hk]
    by_cases ht : k.tag = "AR-PACKAGES"
    · simp only [ht, decide_true, if_true, List.flatMap_cons]
      exact pkids_append (pkids_filter _ (pagree_kids hk (by rw [ht]; exact tags_not_record.2.1))) ih
    · simpa only [ht, decide_false, Bool.false_eq_true, if_false] using ih

theorem readTree_alike {stop : Bool} {version : Nat} {as as' : Attrs} {ds ds' : List Dom}
    (h : Alike (.elem "AUTOSAR" as ds) (.elem "AUTOSAR" as' ds')) :
    readTree stop version (.elem "AUTOSAR" as ds) = readTree stop version (.elem "AUTOSAR" as' ds') := by
  obtain ⟨-, rfl⟩ := alike_tag h
  unfold readTree
  obtain ⟨k, -, hk⟩ := pden_elem stop none "AUTOSAR" as ds
  obtain ⟨k', -, hk'⟩ := pden_elem stop none "AUTOSAR" as ds'
  have hag := pagree_of_alike (stop := stop) h hk hk'
  obtain ⟨-, _, _, _, hd, htag, -, -⟩ := pden_parts hk
  cases hd
  have hks := root_agree (pagree_kids hag (by rw [htag]; exact tags_not_record.2.2.2))
  have := (subs_agree hks (fun q hq => by
    obtain ⟨_, -, hq⟩ := List.mem_flatMap.1 hq
    simpa using (List.mem_filter.1 hq).2) []).2
  have this' : readRoot [] (((pdenKids stop ds).filter fun k => k.tag = "AR-PACKAGES").flatMap
      fun k => k.kids.filter fun k => k.tag = "AR-PACKAGE") =
    readRoot [] (((pdenKids stop ds').filter fun k => k.tag = "AR-PACKAGES").flatMap
      fun k => k.kids.filter fun k => k.tag = "AR-PACKAGE") := this
  simp only [this']

end Verif.Codec
