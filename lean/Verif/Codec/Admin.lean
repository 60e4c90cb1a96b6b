import Verif.Codec.Reject
/-
Administrative data is read and thrown away.
-/
set_option linter.unusedSimpArgs false
namespace Verif.Codec.Reject
open Verif.Py Verif.Num Verif.Xml Verif.Xml.Spec Verif.Codec.Spec

/-- The statements of the methods that make identifiable objects. -/
def adminMeth : RMethod Cls RM → Bool
  | .node c items => !identifiable c ||
    ((items.any fun i => match i with | .admin => true | _ => false) &&
      items.all fun i => match i with
        | .admin => true
        | i => itemFits false i && blind i "ADMIN-DATA")
  | .mixed c _ _ _ _ => !identifiable c
  | _ => true

theorem admins_fixed : ∀ n < 202, adminMeth (rm (RM.ofNat n) "") = true := by decide +kernel

theorem admins_ok (m : RM) (t : String) : adminMeth (rm m t) = true := by
  by_cases hb : byTag m = true
  · cases m <;> simp only [byTag, Bool.false_eq_true] at hb
    · show adminMeth (Reader.multi_language_long_name t) = true
      unfold Reader.multi_language_long_name
      split <;> first | rfl | decide +kernel
    · show adminMeth (Reader.multi_language_overview_paragraph t) = true
      unfold Reader.multi_language_overview_paragraph
      split <;> first | rfl | decide +kernel
    · show adminMeth (Reader.port_in_composition_type_instance_ref t) = true
      unfold Reader.port_in_composition_type_instance_ref
      split <;> first | rfl | decide +kernel
  · rw [rm_fixed (by simpa using hb) t ""]
    have h : m.ctorIdx < 202 := by cases m <;> decide
    have := admins_fixed _ h
    rwa [RM.ofNat_ctorIdx] at this

theorem has_key : ∀ (as : Attrs) (k : String),
    (as.any fun a => decide (a.1 = k)) = (dictGet as k).isSome
  | [], _ => rfl
  | (a, v) :: as, k => by
    rw [List.any_cons, has_key as k]
    by_cases h : a = k <;> simp [dictGet, h]

theorem group_ok {tl : Option String} {d : Dom} {k : RD} (h : rden tables tl d = some k) :
    (groupOk d = true → readSdg k = .ok []) ∧ (groupOk d = false → ∃ e, readSdg k = .error e) := by
  cases d with
  | text s => rw [rden] at h; cases h
  | elem t as ds =>
    rw [rden_elem] at h
    cases h
    simp only [groupOk, readSdg, RDen.attrs, RDen.kids, has_key]
    cases hg : dictGet as "GID" with
    | none => simp
    | some g =>
      have hcf := child_first "SD" ds
      cases hc : childOf "SD" (rdenKids tables ds) with
      | none =>
        have : firstElem "SD" ds = none := by
          have := hcf.1; rw [hc] at this; simpa using this.symm
        simp [this]
      | some sd =>
        obtain ⟨d, tl', hd, hk⟩ := hcf.2 sd hc
        rw [hd]
        cases d with
        | text s => rw [rden] at hk; cases hk
        | elem t' as' ds' =>
          rw [rden_elem] at hk
          cases hk
          simp only [has_key]
          cases hg' : dictGet as' "GID" <;> simp [hg']

theorem groups_ok : ∀ ds : List Dom,
    ((ds.all fun d => !hasTag "SDG" d || groupOk d) = true →
      collect (((rdenKids tables ds).filter fun k => k.tag = "SDG").map readSdg) = .ok []) ∧
    ((ds.all fun d => !hasTag "SDG" d || groupOk d) = false →
      ∃ e, collect (((rdenKids tables ds).filter fun k => k.tag = "SDG").map readSdg) = .error e)
  | [] => by rw [rdenKids]; simp [collect]
  | d :: ds => by
    have ih := groups_ok ds
    rw [rdenKids]
    cases h : rden tables (leadText ds) d with
    | none =>
      have : hasTag "SDG" d = false := by
        cases d with
        | text s => rfl
        | elem u as ds => rw [rden_elem] at h; cases h
      simpa [this] using ih
    | some k =>
      simp only [List.all_cons, rden_hasTag h, List.filter_cons]
      by_cases hk : k.tag = "SDG"
      · simp only [hk, decide_true, Bool.not_true, Bool.false_or, if_true, List.map_cons]
        obtain ⟨g1, g2⟩ := group_ok h
        cases hg : groupOk d with
        | false =>
          obtain ⟨e, he⟩ := g2 hg
          simp [he, collect]
        | true =>
          rw [g1 hg]
          simp only [Bool.true_and]
          constructor
          · intro h
            rw [collect, ih.1 h]; rfl
          · intro h
            obtain ⟨e, he⟩ := ih.2 h
            exact ⟨e, by rw [collect, he]⟩
      · simpa [hk] using ih

theorem admin_ok {tl : Option String} {t : String} {as : Attrs} {ds : List Dom} {k : RD}
    (h : rden tables tl (.elem t as ds) = some k) :
    (adminOk ds = true → readAdmin k = .ok []) ∧
    (adminOk ds = false → ∃ e, readAdmin k = .error e) := by
  rw [rden_elem] at h
  cases h
  simp only [adminOk, readAdmin, RDen.kids]
  have hcf := child_first "SDGS" ds
  cases hc : childOf "SDGS" (rdenKids tables ds) with
  | none =>
    have : firstElem "SDGS" ds = none := by
      have := hcf.1; rw [hc] at this; simpa using this.symm
    simp [this]
  | some s =>
    obtain ⟨d, tl', hd, hk⟩ := hcf.2 s hc
    rw [hd]
    cases d with
    | text s => rw [rden] at hk; cases hk
    | elem t' as' ds' =>
      rw [rden_elem] at hk
      cases hk
      exact groups_ok ds'

theorem same_of_dom {d : Dom} {tl tl' : Option String} {k k' : RD}
    (h : rden tables tl d = some k) (h' : rden tables tl' d = some k') : SameDen k k' := by
  cases d with
  | text s => rw [rden] at h; cases h
  | elem t as ds =>
    rw [rden_elem] at h h'
    cases h; cases h'
    exact ⟨rfl, rfl, rfl, rfl, rfl⟩

/-- The children without those with tag `u`. -/
def others (u : String) (ks : List RD) : List RD := ks.filter fun k => !decide (k.tag = u)

theorem child_others (u t : String) (ks : List RD) :
    childOf t (others u ks) = if t = u then none else childOf t ks := by
  induction ks with
  | nil => simp [others, childOf]
  | cons k ks ih =>
    unfold others at ih ⊢
    rw [List.filter_cons, child_cons]
    by_cases hk : k.tag = u
    · simp only [hk, decide_true, Bool.not_true, Bool.false_eq_true, if_false, ih]
      by_cases ht : t = u
      · simp [ht]
      · simp [ht, Ne.symm ht]
    · simp only [hk, decide_false, Bool.not_false, if_true, child_cons, ih]
      by_cases ht : k.tag = t
      · have : t ≠ u := ht ▸ hk
        simp [ht, this]
      · simp [ht]

theorem others_byTag {u : String} {ds ds' : List Dom}
    (h : ∀ tag, tag ≠ u → firstElem tag ds = firstElem tag ds') :
    KidsByTag (others u (rdenKids tables ds)) (others u (rdenKids tables ds')) := by
  constructor
  · intro t _
    rw [child_others, child_others]
    split
    · rfl
    · rename_i ht
      rw [(child_first t ds).1, (child_first t ds').1, h t ht]
  · intro t a b _ ha hb
    rw [child_others] at ha hb
    split at ha
    · cases ha
    · rename_i ht
      rw [if_neg ht] at hb
      obtain ⟨d, tl, hd, hk⟩ := (child_first t ds).2 a ha
      obtain ⟨d', tl', hd', hk'⟩ := (child_first t ds').2 b hb
      rw [h t ht, hd'] at hd
      cases hd
      exact .same (same_of_dom hk hk')

theorem item_others (as : Attrs) (x : Option String) (ks : List RD) {i : RItem RM} {u : String}
    (hb : blind i u = true) : readItem as x (others u ks) i = readItem as x ks i := by
  rw [← readItem_blind as x ks i, ← readItem_blind as x (others u ks) i]
  congr 1
  unfold others
  rw [List.filter_filter]
  apply List.filter_congr
  intro k _
  by_cases hk : k.tag = u
  · simp [hk, hb]
  · simp [hk]

theorem collect_nil {α : Type} {e : PyErr} {l : List (Except PyErr (List α))}
    (h : .error e ∈ l) : ∃ e', collect l = .error e' := by
  induction l with
  | nil => cases h
  | cons a l ih =>
    cases a with
    | error e' => exact ⟨e', rfl⟩
    | ok r =>
      rcases List.mem_cons.1 h with h | h
      · cases h
      · obtain ⟨e', he⟩ := ih h
        exact ⟨e', by rw [collect, he]⟩

/-- With administrative data or without, the result is the same. -/
theorem admin_same {m : RM} {t : String} {as : Attrs} {ds ds' : List Dom} {c : Cls}
    (hc : objClass m t = some c) (hid : identifiable c = true)
    (h : ∀ tag, tag ≠ "ADMIN-DATA" → firstElem tag ds = firstElem tag ds')
    (hok : ∀ u a k, firstElem "ADMIN-DATA" ds = some (.elem u a k) → adminOk k = true)
    (hok' : ∀ u a k, firstElem "ADMIN-DATA" ds' = some (.elem u a k) → adminOk k = true) :
    readWith tables m (.elem t as ds) = readWith tables m (.elem t as ds') := by
  have hmo := admins_ok m t
  have hcalls := calls_ok m t
  unfold readWith
  rw [rden_elem, rden_elem]
  show runReader tables m t as (leadText ds) (rdenKids tables ds) =
    runReader tables m t as (leadText ds') (rdenKids tables ds')
  have hadm : ∀ (ds : List Dom) (x : Option String), (∀ u a k, firstElem "ADMIN-DATA" ds =
      some (.elem u a k) → adminOk k = true) →
      readItem as x (rdenKids tables ds) (.admin : RItem RM) = .ok [] := by
    intro ds x hok
    simp only [readItem]
    split
    · rfl
    · rename_i k hk
      obtain ⟨d, tl, hd, hk⟩ := (child_first _ ds).2 k hk
      cases d with
      | text s => rw [rden] at hk; cases hk
      | elem u a ks =>
        rw [(admin_ok hk).1 (hok _ _ _ hd)]
  unfold objClass at hc
  cases hm : rm m t with
  | bad e => rw [hm] at hc; cases hc
  | ref cls d => rw [hm] at hc; cases hc
  | mixed c' items key tags skipped =>
    rw [hm] at hc hmo
    cases hc
    simp [adminMeth, hid] at hmo
  | node c' items =>
    rw [hm] at hc hmo hcalls
    cases hc
    simp only [adminMeth, hid, Bool.not_true, Bool.false_or, Bool.and_eq_true,
      List.all_eq_true] at hmo
    simp only [methCalls, List.all_eq_true] at hcalls
    have hm' : tables.rm m t = .node c items := hm
    unfold runReader
    rw [hm']
    have : items.map (readItem as (leadText ds) (rdenKids tables ds)) =
        items.map (readItem as (leadText ds') (rdenKids tables ds')) := by
      apply List.map_congr_left
      intro i hi
      by_cases ha : i = .admin
      · rw [ha, hadm ds _ hok, hadm ds' _ hok']
      · have h2 := hmo.2 i hi
        have h3 : itemFits false i = true ∧ blind i "ADMIN-DATA" = true := by
          cases i <;> simp_all
        rw [← item_others _ _ (rdenKids tables ds) h3.2,
          ← item_others _ _ (rdenKids tables ds') h3.2]
        exact item_agree (others_byTag h) (fun u hu =>
          .inr (.inr ⟨m, t, c, items, hm, i, hi, hu⟩)) h3.1 (hcalls i hi)
    simp only [this]

/-- With other administrative data the element cannot be read. -/
theorem admin_fails {m : RM} {t : String} {as : Attrs} {ds : List Dom} {c : Cls}
    (hc : objClass m t = some c) (hid : identifiable c = true) {u : String} {a : Attrs}
    {k : List Dom} (h : firstElem "ADMIN-DATA" ds = some (.elem u a k))
    (hk : adminOk k = false) : ∃ e, readWith tables m (.elem t as ds) = .error e := by
  have hmo := admins_ok m t
  unfold readWith
  rw [rden_elem]
  show ∃ e, runReader tables m t as (leadText ds) (rdenKids tables ds) = .error e
  unfold objClass at hc
  cases hm : rm m t with
  | bad e => rw [hm] at hc; cases hc
  | ref cls d => rw [hm] at hc; cases hc
  | mixed c' items key tags skipped =>
    rw [hm] at hc hmo
    cases hc
    simp [adminMeth, hid] at hmo
  | node c' items =>
    rw [hm] at hc hmo
    cases hc
    simp only [adminMeth, hid, Bool.not_true, Bool.false_or, Bool.and_eq_true,
      List.any_eq_true] at hmo
    obtain ⟨i, hi, hadm⟩ := hmo.1
    have ha : i = .admin := by cases i <;> simp_all
    subst ha
    have hs : (childOf "ADMIN-DATA" (rdenKids tables ds)).isSome = true := by
      rw [(child_first _ ds).1, h]; rfl
    obtain ⟨r, hr⟩ := Option.isSome_iff_exists.1 hs
    obtain ⟨d, tl, hd, hden⟩ := (child_first _ ds).2 r hr
    rw [h] at hd
    cases hd
    obtain ⟨e, he⟩ := (admin_ok hden).2 hk
    have hitem : readItem as (leadText ds) (rdenKids tables ds) (.admin : RItem RM) = .error e := by
      simp only [readItem, hr, he]
    have hm' : tables.rm m t = .node c items := hm
    unfold runReader
    rw [hm']
    obtain ⟨e', he'⟩ := collect_nil (List.mem_map.2 ⟨_, hi, hitem⟩)
    exact ⟨e', by simp only [he']⟩

end Verif.Codec.Reject
