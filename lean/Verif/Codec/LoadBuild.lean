import Verif.Codec.Load
/-
Objects and packages that are read have the right type.
-/
set_option linter.unusedSimpArgs false
set_option linter.unusedVariables false
namespace Verif.Codec.Load
open Verif.Py Verif.Enums Verif.Num Verif.Xml Verif.Xml.Spec Verif.Codec.Spec
open Verif.Ref (RefObj construct DestArg refClasses)

/-! ### Objects -/

theorem writableList_mem {vs : List (Val Cls)} (h : writableList vs = true) :
    ∀ v ∈ vs, writable v = true := by
  induction vs with
  | nil => simp
  | cons v vs ih =>
    simp only [writableList, Bool.and_eq_true] at h
    intro w hw
    rcases List.mem_cons.1 hw with rfl | hw
    · exact h.1
    · exact ih h.2 w hw

theorem writableFields_mem {c : Cls} {fs : List (String × Val Cls)} (h : writableFields c fs = true) :
    ∀ p ∈ fs, writable p.2 = true ∧ attrWritable c p.1 p.2 = true := by
  induction fs with
  | nil => simp
  | cons p fs ih =>
    obtain ⟨k, v⟩ := p
    simp only [writableFields, Bool.and_eq_true] at h
    intro q hq
    rcases List.mem_cons.1 hq with rfl | hq
    · exact h.1
    · exact ih h.2 q hq

theorem kind_has {g : Field Cls} {w : Val Cls} (hk : Kind g w) (hw : writable w = true)
    (hg : g.shape ≠ .mixed) (hnum : g.alts.contains .numFloat = true → g.alts.contains .int = true)
    (href : ∀ r cls ds, w = .ref r → .refTo cls ds ∈ g.alts → r.dest ∈ ds)
    (hm : ∀ c, .member c ∉ g.alts) (hf : (g.alts.any fun a => fitsS a w) = true) :
    g.alts.any (hasS tables w) = true := by
  by_cases hs : notStr w = true
  · exact single_ok hk.1 hw hs hnum href hm hf
  · cases w <;> simp only [notStr, not_true_eq_false] at hs
    rename_i s
    simp only [writable, Bool.and_eq_true, decide_eq_true_eq] at hw
    obtain ⟨a, ha, h⟩ := hk.2.1 s rfl hw.1 (List.any_eq_true.1 hf)
    exact List.any_eq_true.2 ⟨a, ha, h⟩

theorem field_ok {c : Cls} {f g : Field Cls} {w : Val Cls} (hg : g ∈ covered c)
    (hc : coveredAs f g = true) (hf : fits f w = true) (hs : Slot g w)
    (hne : w ≠ .list []) (hw : writable w = true) (ha : attrWritable c g.attr w = true) :
    hasField tables g w = true := by
  have hcls := classes_ok c
  simp only [classOk, Bool.and_eq_true, List.all_eq_true, decide_eq_true_eq] at hcls
  have hgc := hcls.2 g hg
  simp only [Bool.or_eq_true, decide_eq_true_eq] at hgc
  simp only [coveredAs, Bool.and_eq_true, decide_eq_true_eq, Bool.or_eq_true] at hc
  obtain ⟨⟨⟨⟨hp, hat⟩, hsh⟩, hal⟩, hnum⟩ := hc
  have hnum' : g.alts.contains .numFloat = true → g.alts.contains .int = true := by
    intro h
    rcases hnum with h' | h'
    · rw [h] at h'; cases h'
    · exact h'
  have hm : ∀ c', .member c' ∉ g.alts := by
    intro c' h
    have := hgc.2 _ h
    simp at this
  have href : ∀ r cls ds, w = .ref r → .refTo cls ds ∈ g.alts → r.dest ∈ ds := by
    rintro r cls ds rfl h
    have h' := hgc.2 _ h
    simp only [Bool.and_eq_true, decide_eq_true_eq] at h'
    simp only [attrWritable, Bool.and_eq_true, h'.1.2, h'.2] at ha
    simpa using ha.2
  have hlref : ∀ cls ds, .refTo cls ds ∈ g.alts → g.shape = .one := by
    intro cls ds h
    have h' := hgc.2 _ h
    simp only [Bool.and_eq_true, decide_eq_true_eq] at h'
    exact h'.1.1
  -- lists whose elements are not mixed content
  have hlist : ∀ vs, w = .list vs → g.shape ≠ .mixed → g.shape ≠ .one → g.alts = f.alts →
      hasList tables g.alts vs = true := by
    rintro vs rfl h1 h2 h3
    rw [hasList_iff]
    intro u hu
    have hfu : (g.alts.any fun a => fitsS a u) = true := by
      simp only [fits, Bool.and_eq_true, List.all_eq_true] at hf
      rw [h3]
      exact hf.2 u hu
    have := kind_has (hs.2.2 u hu) (writableList_mem (by simpa [writable] using hw) u hu) h1 hnum'
      (fun r cls ds _ h => absurd (hlref cls ds h) h2) hm hfu
    simpa using this
  cases hshape : g.shape with
  | one =>
    have hfo : f.shape = .one := by
      rw [hshape] at hsh
      cases hfs : f.shape <;> simp [hfs] at hsh ⊢
    have hal' : g.alts = f.alts := by
      rcases hal with h | h
      · rw [hshape] at h; cases h
      · exact h
    have hwl : ∀ vs, w ≠ .list vs := by
      rintro vs rfl
      simp [fits, hfo] at hf
    have hk : Kind g w := by
      cases w <;> first | exact hs | exact absurd rfl (hwl _)
    have hfu : (g.alts.any fun a => fitsS a w) = true := by
      rw [hal']
      cases w <;> first | (simp only [fits, Bool.and_eq_true] at hf; exact hf.2) | exact absurd rfl (hwl _)
    simp only [hasField, hshape]
    exact kind_has hk hw (by rw [hshape]; simp) hnum' href hm hfu
  | many max =>
    have hfo : f.shape ≠ .one := by
      rw [hshape] at hsh
      cases hfs : f.shape <;> simp [hfs] at hsh ⊢
    obtain ⟨vs, rfl⟩ : ∃ vs, w = .list vs := by
      cases w <;> first | exact ⟨_, rfl⟩ | simp [fits, hfo] at hf
    have hal' : g.alts = f.alts := by
      rcases hal with h | h
      · rw [hshape] at h; cases h
      · exact h
    simp only [hasField, hshape, Bool.and_eq_true]
    refine ⟨⟨?_, ?_⟩, hlist vs rfl (by rw [hshape]; simp) (by rw [hshape]; simp) hal'⟩
    · cases vs <;> simp at hne ⊢
    · cases max with
      | none => rfl
      | some n => simpa [maxOk] using hs.2.1 n hshape
  | first =>
    have hfo : f.shape ≠ .one := by
      rw [hshape] at hsh
      cases hfs : f.shape <;> simp [hfs] at hsh ⊢
    obtain ⟨vs, rfl⟩ : ∃ vs, w = .list vs := by
      cases w <;> first | exact ⟨_, rfl⟩ | simp [fits, hfo] at hf
    have hal' : g.alts = f.alts := by
      rcases hal with h | h
      · rw [hshape] at h; cases h
      · exact h
    simp only [hasField, hshape, Bool.and_eq_true]
    refine ⟨?_, hlist vs rfl (by rw [hshape]; simp) (by rw [hshape]; simp) hal'⟩
    cases vs <;> simp at hne ⊢
  | mixed =>
    have hfo : f.shape ≠ .one := by
      rw [hshape] at hsh
      cases hfs : f.shape <;> simp [hfs] at hsh ⊢
    obtain ⟨vs, rfl⟩ : ∃ vs, w = .list vs := by
      cases w <;> first | exact ⟨_, rfl⟩ | simp [fits, hfo] at hf
    simp only [hasField, hshape, Bool.and_eq_true]
    have hparts : g.attr = "parts" := by
      rcases hgc.1 with h | h
      · exact absurd hshape h
      · exact h
    refine ⟨⟨?_, ?_⟩, ?_⟩
    · cases vs <;> simp at hne ⊢
    · rw [hparts] at ha
      simp only [attrWritable, Bool.and_eq_true] at ha
      simpa using ha.1.2
    · rw [hasList_iff]
      intro u hu
      have hwu := writableList_mem (by simpa [writable] using hw) u hu
      obtain ⟨h1, h2, h3⟩ := hs.2.2 u hu
      rcases h3 hshape with ⟨s, rfl, hstr⟩ | ⟨c', fs, rfl, h⟩
      · simp only [writable, Bool.and_eq_true, decide_eq_true_eq] at hwu
        exact h2 s rfl hwu.1 ⟨.str, hstr, rfl⟩
      · exact ⟨_, h, h1 hwu⟩

theorem sublist_filter {l L : List String} (h : l.Sublist L) (hn : L.Nodup) :
    l = L.filter (· ∈ l) := by
  induction h with
  | slnil => rfl
  | cons a h ih =>
    rename_i l1 l2
    rw [List.nodup_cons] at hn
    have : a ∉ l1 := fun h' => hn.1 (h.subset h')
    rw [List.filter_cons_of_neg (by simpa using this)]
    exact ih hn.2
  | cons_cons a h ih =>
    rename_i l1 l2
    rw [List.nodup_cons] at hn
    rw [List.filter_cons_of_pos (by simp)]
    congr 1
    rw (occs := .pos [1]) [ih hn.2]
    refine List.filter_congr ?_
    intro x hx
    have : x ≠ a := by rintro rfl; exact hn.1 hx
    simp [this]

theorem narrow_attr (c : Cls) (f : Field Cls) : (narrow c f).attr = f.attr := by
  unfold narrow
  split <;> rfl

theorem covered_attrs (c : Cls) : (covered c).map (·.attr) =
    ((Schema.ctor c).filter fun f => f.attr ≠ "service_kind").map (·.attr) := by
  unfold covered
  rw [List.map_map]
  exact List.map_congr_left fun f _ => narrow_attr c f

theorem build_raw {c : Cls} {data : Data Cls} {v : Val Cls}
    (hd : ∀ key w, (key, some w) ∈ data → Entry c key w)
    (h : build tables c data = .ok v) : RawS v ∧ ∃ fs, v = .obj c fs := by
  unfold build buildWith at h
  split at h
  · cases h
  split at h
  · cases h
  split at h
  · cases h
  rename_i _ _ hfit
  cases h
  refine ⟨?_, _, rfl⟩
  have hfit : ∀ f ∈ Schema.ctor c, argOk data f = true := by
    simpa [tables] using hfit
  intro hw
  simp only [writable, Bool.and_eq_true] at hw
  -- where an attribute comes from
  have hsrc : ∀ f ∈ Schema.ctor c, ∀ w, normal ((lastOf data f.param).getD none) = some w →
      fits f w = true ∧ w ≠ .list [] ∧ Entry c f.param w := by
    intro f hf w hn
    have h1 := hfit f hf
    simp only [argOk, hn] at h1
    have h2 : lastOf data f.param = some (some w) := by
      cases hl : lastOf data f.param with
      | none => simp [hl, normal] at hn
      | some x =>
        cases x with
        | none => simp [hl, normal] at hn
        | some u =>
          rw [hl] at hn
          simp only [Option.getD_some] at hn
          unfold normal at hn
          split at hn
          · cases hn
          · rw [hn]
    refine ⟨h1, ?_, hd _ _ (lastOf_mem h2)⟩
    rintro rfl
    rw [h2] at hn
    simp [normal] at hn
  have hcls := classes_ok c
  simp only [classOk, Bool.and_eq_true, List.all_eq_true, decide_eq_true_eq] at hcls
  obtain ⟨⟨⟨hna, hnp⟩, hct⟩, -⟩ := hcls
  have hsk : ∀ f ∈ Schema.ctor c, ∀ w, normal ((lastOf data f.param).getD none) = some w →
      f.attr ≠ "service_kind" := by
    intro f hf w hn hs
    obtain ⟨h1, h2, h3⟩ := hsrc f hf w hn
    have := hct f hf
    rw [if_pos hs] at this
    simp only [Bool.and_eq_true, decide_eq_true_eq] at this
    have h4 := h3.1
    cases w with
    | enum m =>
      simp [fits, this, fitsS] at h1
      have h5 : RawS (.enum m) := h4
      have h6 := h5.2
      rw [h1] at h6
      exact absurd h6 (by decide +kernel)
    | list vs => simp [fits, this.2] at h1
    | num n => cases n <;> simp [fits, this, fitsS] at h1
    | _ => simp [fits, this, fitsS] at h1
  show hasS tables (.obj c ((Schema.ctor c).filterMap _)) _ = true
  simp only [hasS, Bool.and_eq_true, decide_true, true_and]
  have hmem : ∀ k w, (k, w) ∈ ((Schema.ctor c).filterMap fun f =>
      (normal ((lastOf data f.param).getD none)).map fun v => (f.attr, v)) →
      ∃ f ∈ Schema.ctor c, f.attr = k ∧ normal ((lastOf data f.param).getD none) = some w := by
    intro k w hkw
    obtain ⟨f, hf, hm⟩ := List.mem_filterMap.1 hkw
    obtain ⟨w', hw', he⟩ := Option.map_eq_some_iff.1 hm
    cases he
    exact ⟨f, hf, rfl, hw'⟩
  refine ⟨?_, ?_⟩
  · show orderOk (covered c) _ = true
    simp only [orderOk, Bool.and_eq_true, decide_eq_true_eq, List.all_eq_true]
    refine ⟨sublist_filter ?_ hna, ?_⟩
    · rw [covered_attrs]
      have : ∀ l : List (Field Cls), (∀ f ∈ l, f ∈ Schema.ctor c) →
          ((l.filterMap fun f => (normal ((lastOf data f.param).getD none)).map
            fun v => (f.attr, v)).map (·.1)).Sublist
          ((l.filter fun f => f.attr ≠ "service_kind").map (·.attr)) := by
        intro l
        induction l with
        | nil => intro _; exact .slnil
        | cons f l ih =>
          intro hl
          have ih := ih fun f hf => hl f (by simp [hf])
          cases hn : normal ((lastOf data f.param).getD none) with
          | none =>
            rw [List.filterMap_cons_none (by simp [hn])]
            by_cases hs : f.attr = "service_kind"
            · rw [List.filter_cons_of_neg (by simpa using hs)]
              exact ih
            · rw [List.filter_cons_of_pos (by simpa using hs)]
              exact ih.cons _
          | some w =>
            have hs := hsk f (hl f (by simp)) w hn
            rw [List.filterMap_cons_some (b := (f.attr, w)) (by simp [hn]),
              List.filter_cons_of_pos (by simpa using hs)]
            exact ih.cons_cons _
      exact this _ fun f hf => hf
    · intro g hg
      cases hr : g.req with
      | false => rfl
      | true =>
        have := List.all_eq_true.1 hw.1 g.attr (by
          unfold mandatory
          exact List.mem_map.2 ⟨g, List.mem_filter.2 ⟨hg, hr⟩, rfl⟩)
        have htc : tables.ctor c = Schema.ctor c := rfl
        simpa [htc] using this
  · have hwf := writableFields_mem hw.2
    have : ∀ fs : List (String × Val Cls), (∀ p ∈ fs, ∃ g, fieldOf (covered c) p.1 = some g ∧
        hasField tables g p.2 = true) → hasFields tables (covered c) fs = true := by
      intro fs
      induction fs with
      | nil => intro _; rfl
      | cons p fs ih =>
        intro hp
        obtain ⟨k, w⟩ := p
        rw [hasFields_cons, Bool.and_eq_true]
        refine ⟨?_, ih fun p hp' => hp p (by simp [hp'])⟩
        obtain ⟨g, hg, hh⟩ := hp (k, w) (by simp)
        simp only at hg
        simp [hg, hh]
    refine this _ ?_
    rintro ⟨k, w⟩ hp
    obtain ⟨f, hf, rfl, hn⟩ := hmem k w hp
    obtain ⟨h1, h2, h3⟩ := hsrc f hf w hn
    have := hct f hf
    rw [if_neg (hsk f hf w hn)] at this
    obtain ⟨g, hg, hc⟩ := List.any_eq_true.1 this
    have hc' := hc
    simp only [coveredAs, Bool.and_eq_true, decide_eq_true_eq] at hc'
    obtain ⟨⟨⟨⟨hp', hat⟩, -⟩, -⟩, -⟩ := hc'
    refine ⟨g, ?_, field_ok hg hc h1 (h3.2 g hg hp') h2 (hwf _ hp).1 ?_⟩
    · rw [← hat]; exact fieldOf_self hna hg
    · rw [hat]; exact (hwf _ hp).2

/-! ### Elements -/

theorem part_raw {x : Option String} {c : Cls} {g : Field Cls} {tags : List (String × RM)}
    {skipped : List String} {k : RD} (hk : Fine k) (hs : g.shape = .mixed)
    (hstr : g.alts.contains .str = true)
    (ht : (tags.all fun x => match rm x.2 x.1 with
        | .node c' _ => g.alts.contains (.cls c')
        | _ => false) = true) {vs : List (Val Cls)}
    (h : readPart x tags skipped k = .ok vs) : ∀ v ∈ vs, Kind g v := by
  have hstring : ∀ t : String, Kind g (.str t) := by
    intro t
    refine ⟨trivial, ?_, fun _ => .inl ⟨t, rfl, by simpa using hstr⟩⟩
    rintro s ⟨⟩ hs -
    exact ⟨.str, by simpa using hstr, by simpa [hasS] using hs⟩
  have hafter : ∀ r, (match k.tail, x with
      | none, _ => .ok []
      | some _, some t => .ok [.str t]
      | some _, none => .error PyErr.typeError : Except PyErr (List (Val Cls))) = .ok r →
      ∀ v ∈ r, Kind g v := by
    intro r hr
    split at hr
    · cases hr; simp
    · cases hr; simpa using hstring _
    · cases hr
  unfold readPart at h
  simp only at h
  split at h
  · rename_i m hm
    split at h
    · cases h
    · rename_i v hv
      split at h
      · cases h
      · rename_i r hr
        cases h
        intro w hw
        rcases List.mem_cons.1 hw with rfl | hw
        · obtain ⟨h1, h2⟩ := hk m _ hv
          have h3 := List.all_eq_true.1 ht _ (dictGet_mem _ _ _ hm)
          simp only at h3
          split at h3
          · rename_i c' items hrm
            rw [hrm] at h2
            obtain ⟨fs, rfl⟩ := h2
            refine ⟨h1, by rintro s ⟨⟩, fun _ => .inr ⟨c', fs, rfl, by simpa using h3⟩⟩
          · cases h3
        · exact hafter r hr w hw
  · split at h
    · exact hafter vs h
    · cases h

theorem run_raw {m : RM} {t : String} {as : Attrs} {x : Option String} {kids : List RD}
    (hk : ∀ k ∈ kids, Fine k) (hkk : ∀ k ∈ kids, ∀ k' ∈ k.kids, Fine k') {v : Val Cls}
    (h : runReader tables m t as x kids = .ok v) : RawS v ∧ Res (rm m t) v := by
  have hmo := meths_ok m t
  unfold runReader at h
  have htab : tables.rm m t = rm m t := rfl
  rw [htab] at h
  cases hm : rm m t with
  | bad e => rw [hm] at h; cases h
  | node c items =>
    rw [hm] at h hmo
    simp only at h
    split at h
    · cases h
    · rename_i data hdata
      simp only [methOk, List.all_eq_true] at hmo
      refine build_raw (fun key w hkw => ?_) h
      obtain ⟨ri, hri, r, hr, hmem⟩ := collect_mem hdata hkw
      exact (item_entry hk hkk (hmo ri hri) hr hmem).2
  | ref cls dest =>
    rw [hm] at h hmo
    simp only at h
    split at h
    · cases h
    · split at h
      · split at h
        · split at h
          · rename_i r hr
            cases h
            obtain ⟨h1, rc, h2, h3⟩ := construct_ok hr
            simp only [methOk, h2] at hmo
            refine ⟨⟨?_, rc, by rw [h1]; exact h2, h3⟩, r, rfl⟩
            simp only [Bool.or_eq_true, decide_eq_true_eq, reduceCtorEq, false_or,
              List.all_eq_true] at hmo
            exact hmo _ h3
          · cases h
        · cases h
      · split at h
        · cases h
        · rename_i dm hdm
          split at h
          · rename_i r hr
            cases h
            obtain ⟨h1, rc, h2, h3⟩ := construct_ok hr
            refine ⟨⟨?_, rc, by rw [h1]; exact h2, h3⟩, r, rfl⟩
            rw [construct_given hr]
            obtain ⟨h4, h5, -⟩ := xmlToEnum_ok hdm
            rw [← h4]
            exact h5
          · cases h
  | mixed c items key tags skipped =>
    rw [hm] at h hmo
    simp only at h
    split at h
    · cases h
    · rename_i data hdata
      split at h
      · cases h
      · rename_i vs hvs
        simp only [methOk, List.all_eq_true, Bool.and_eq_true, decide_eq_true_eq] at hmo
        obtain ⟨⟨hi, hne⟩, hg⟩ := hmo
        refine build_raw (fun k w hkw => ?_) h
        rcases List.mem_append.1 hkw with hkw | hkw
        · obtain ⟨ri, hri, r, hr, hmem⟩ := collect_mem hdata hkw
          exact (item_entry hk hkk (hi ri hri) hr hmem).2
        · simp only [List.mem_singleton, Prod.mk.injEq, Option.some.injEq] at hkw
          obtain ⟨rfl, rfl⟩ := hkw
          have hall : ∀ g ∈ covered c, g.param = k → ∀ w, (∃ t, w = .str t) ∨ w ∈ vs →
              Kind g w ∧ g.shape = .mixed := by
            intro g hgc hp w hw
            have h' := hg g hgc
            simp only [Bool.or_eq_true, decide_eq_true_eq, Bool.and_eq_true] at h'
            rcases h' with h' | ⟨⟨h1, h2⟩, h3⟩
            · exact absurd hp h'
            refine ⟨?_, h1⟩
            rcases hw with ⟨t, rfl⟩ | hw
            · refine ⟨trivial, ?_, fun _ => .inl ⟨t, rfl, by simpa using h2⟩⟩
              rintro s ⟨⟩ hs -
              exact ⟨.str, by simpa using h2, by simpa [hasS] using hs⟩
            · obtain ⟨k', hk', r, hr, hmem⟩ := collect_mem hvs hw
              exact part_raw (c := c) (hk k' hk') h1 h2 h3 hr w hmem
          have hshape : ∀ g ∈ covered c, g.param = k → g.shape = .mixed := by
            intro g hgc hp
            have h' := hg g hgc
            simp only [Bool.or_eq_true, decide_eq_true_eq, Bool.and_eq_true] at h'
            rcases h' with h' | ⟨⟨h1, -⟩, -⟩
            · exact absurd hp h'
            · exact h1
          refine ⟨?_, fun g hgc hp => ⟨?_, ?_, fun w hw => (hall g hgc hp w ?_).1⟩⟩
          · intro w hw
            rcases List.mem_append.1 hw with hw | hw
            · split at hw
              · simp only [List.mem_singleton] at hw
                subst hw
                trivial
              · cases hw
            · obtain ⟨k', hk', r, hr, hmem⟩ := collect_mem hvs hw
              unfold readPart at hr
              simp only at hr
              split at hr
              · split at hr
                · cases hr
                · rename_i v' hv'
                  split at hr
                  · cases hr
                  · rename_i r' hr'
                    cases hr
                    rcases List.mem_cons.1 hmem with rfl | hmem
                    · exact (hk k' hk' _ _ hv').1
                    · split at hr' <;> cases hr'
                      · cases hmem
                      · simp only [List.mem_singleton] at hmem
                        subst hmem
                        trivial
              · split at hr
                · split at hr <;> cases hr
                  · cases hmem
                  · simp only [List.mem_singleton] at hmem
                    subst hmem
                    trivial
                · cases hr
          · rw [hshape g hgc hp]; simp
          · intro n hs; rw [hshape g hgc hp] at hs; cases hs
          · rcases List.mem_append.1 hw with hw | hw
            · split at hw
              · simp only [List.mem_singleton] at hw
                exact .inl ⟨_, hw⟩
              · cases hw
            · exact .inr hw

theorem reads_mem {ds : List Dom} {ks : List RD} (h : Reads ds ks) :
    ∀ k ∈ ks, ∃ d ∈ ds, ∃ tl, rden tables tl d = some k := by
  induction h with
  | nil => simp
  | cons hd _ ih =>
    intro k hk
    rcases List.mem_cons.1 hk with rfl | hk
    · exact ⟨_, List.mem_cons_self, _, hd⟩
    · obtain ⟨d, h1, h2⟩ := ih k hk
      exact ⟨d, List.mem_cons_of_mem _ h1, h2⟩

theorem elemsOf_mem {d : Dom} : ∀ {ds : List Dom}, d ∈ elemsOf ds → d ∈ ds
  | [], h => by simp [elemsOf] at h
  | .elem t as xs :: ds, h => by
    rw [elemsOf] at h
    rcases List.mem_cons.1 h with rfl | h
    · simp
    · exact List.mem_cons_of_mem _ (elemsOf_mem h)
  | .text s :: ds, h => by
    rw [elemsOf] at h
    exact List.mem_cons_of_mem _ (elemsOf_mem h)

theorem kids_mem {ds : List Dom} {k : RD} (h : k ∈ rdenKids tables ds) :
    ∃ d ∈ ds, ∃ tl, rden tables tl d = some k := by
  obtain ⟨d, h1, h2⟩ := reads_mem (reads_elems ds) k h
  exact ⟨d, elemsOf_mem h1, h2⟩

/-- Whatever a reader method makes of any element. -/
theorem den_fine : ∀ (n : Nat) (d : Dom), sizeOf d < n → ∀ (tl : Option String) (k : RD),
    rden tables tl d = some k → Fine k := by
  intro n
  induction n with
  | zero => intro d h; omega
  | succ n ih =>
    intro d hn tl k hk
    cases d with
    | text s => rw [rden] at hk; cases hk
    | elem t as ds =>
      rw [rden_elem] at hk
      cases hk
      have hsz : ∀ d ∈ ds, sizeOf d < n := by
        intro d hd
        have h1 := List.sizeOf_lt_of_mem hd
        simp at hn
        omega
      intro m v h
      refine run_raw ?_ ?_ h
      · intro k hk
        obtain ⟨d, hd, tl', h'⟩ := kids_mem hk
        exact ih d (hsz d hd) tl' k h'
      · intro k hk k' hk'
        obtain ⟨d, hd, tl', h'⟩ := kids_mem hk
        cases d with
        | text s => rw [rden] at h'; cases h'
        | elem t' as' ds' =>
          have hs := hsz _ hd
          rw [rden_elem] at h'
          cases h'
          obtain ⟨d2, hd2, tl2, h2⟩ := kids_mem hk'
          refine ih d2 ?_ tl2 k' h2
          have h1 := List.sizeOf_lt_of_mem hd2
          simp at hs
          omega

theorem read_fine {m : RM} {d : Dom} {v : Val Cls} (h : readWith tables m d = .ok v) : RawS v := by
  unfold readWith at h
  split at h
  · rename_i k hk
    exact (den_fine _ d (Nat.lt_succ_self _) _ k hk m v h).1
  · cases h

end Verif.Codec.Load
