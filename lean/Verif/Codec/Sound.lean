import Verif.Codec.Link
/-
If all pairs of writer and reader methods agree (`allOk`), everything they write is read back.
-/
set_option linter.unusedSimpArgs false
set_option linter.unusedVariables false
set_option linter.unusedSectionVars false
namespace Verif.Codec
open Verif.Py Verif.Enums Verif.Num Verif.Xml Verif.Xml.Spec
open Verif.Ref (RefObj construct DestArg refClasses)

variable {C W R : Type} [DecidableEq C] [DecidableEq W] [DecidableEq R]

/-! ### XML attributes -/

theorem attr_write (T : Tables C W R) {s : List (Field C)} {fs : List (String × Val C)} {wa : WAttr}
    (hw : wattrOk s wa = true) (ho : orderOk s (fs.map (·.1)) = true)
    (hf : hasFields T s fs = true) :
    ∃ l, writeAttr (wdenFields T fs) wa = .ok l ∧ (∀ e ∈ l, e.1 = wa.name) ∧
      (dictGet fs wa.field = none → l = []) ∧
      ∀ v, dictGet fs wa.field = some v → ∃ f t, fieldOf s wa.field = some f ∧ l = [(wa.name, t)] ∧
        ∀ name key c req, attrOk f wa (.attr name key c req : RItem R) = true →
          c.run (some t) = .ok (some (f.cut (normVal T (f.alts.contains .numFloat) v))) := by
  unfold writeAttr
  rw [wdenFields_get]
  cases hd : dictGet fs wa.field with
  | none =>
    refine ⟨[], ?_, by simp, by simp, by simp⟩
    have : wa.req = false := by
      unfold wattrOk at hw
      cases hfo : fieldOf s wa.field with
      | none => simpa [hfo] using hw
      | some f =>
        simp only [hfo, Bool.and_eq_true, Bool.or_eq_true, Bool.not_eq_true'] at hw
        rcases hw.1.1 with h | h
        · exact h
        · simp only [orderOk, Bool.and_eq_true, List.all_eq_true, Bool.or_eq_true,
            Bool.not_eq_true', decide_eq_true_eq] at ho
          obtain ⟨hm, ha⟩ := fieldOf_mem hfo
          have := ho.2 f hm
          rw [h, ha] at this
          simp only [Bool.true_eq_false, false_or] at this
          exact absurd this (dictGet_none.1 hd)
    simp [this]
  | some v =>
    simp only [Option.map_some, wden_val]
    obtain ⟨f, hfo, hty⟩ := hasFields_get hf hd
    have hw' := hw
    unfold wattrOk at hw'
    simp only [hfo, Bool.and_eq_true, decide_eq_true_eq] at hw'
    obtain ⟨⟨-, hsh⟩, hal⟩ := hw'
    unfold hasField at hty
    simp only [hsh, List.any_eq_true] at hty
    obtain ⟨a, ha, hva⟩ := hty
    cases he : wa.enum with
    | true =>
      simp only [he, if_true] at hal
      split at hal
      · rename_i cls hcls
        rw [hcls] at ha
        simp only [List.mem_singleton] at ha
        subst ha
        obtain ⟨t, h1, h2, h3⟩ := scalar_rt (c := .enum cls) (f := .enum) (b := f.alts.contains .numFloat) T hva
          (by simp [scalarOk]) ⟨by simp, by simp⟩
        refine ⟨[(wa.name, t)], by simp [he, h1], by simp, by simp, ?_⟩
        rintro v' hv'
        simp only [Option.some.injEq] at hv'
        subst hv'
        refine ⟨f, t, hfo, rfl, ?_⟩
        intro name key c req hok
        simp only [attrOk, he, if_true, hcls, Bool.and_eq_true, decide_eq_true_eq] at hok
        rw [hok.2, cut_of hsh (by simp)]
        exact h3
      · simp at hal
    | false =>
      simp only [he, Bool.false_eq_true, if_false, decide_eq_true_eq] at hal
      rw [hal] at ha
      simp only [List.mem_singleton] at ha
      subst ha
      cases v <;> simp [hasS] at hva
      rename_i str
      refine ⟨[(wa.name, str)], by simp [he, Fmt.run], by simp, by simp, ?_⟩
      rintro v' hv'
      simp only [Option.some.injEq] at hv'
      subst hv'
      refine ⟨f, str, hfo, rfl, ?_⟩
      intro name key c req hok
      simp only [attrOk, he, Bool.false_eq_true, if_false, Bool.and_eq_true, Bool.or_eq_true,
        decide_eq_true_eq] at hok
      rw [cut_of hsh (by simp)]
      rcases hok.2.2 with rfl | rfl <;> simp [Conv.run, normVal]

theorem dictGet_flatMap (A : List WAttr) (K : WAttr → List (String × String))
    (hn : (A.map (·.name)).Nodup) (hk : ∀ wa ∈ A, ∀ e ∈ K wa, e.1 = wa.name) (n : String) :
    (∀ wa ∈ A, wa.name = n → dictGet (A.flatMap K) n = dictGet (K wa) n) ∧
      ((∀ wa ∈ A, wa.name ≠ n) → dictGet (A.flatMap K) n = none) := by
  induction A with
  | nil => simp [dictGet]
  | cons a A ih =>
    simp only [List.map_cons, List.nodup_cons] at hn
    obtain ⟨ih1, ih2⟩ := ih hn.2 (fun wa hwa => hk wa (by simp [hwa]))
    have hnone : a.name ≠ n → dictGet (K a) n = none := by
      intro hne
      rw [dictGet_none]
      intro hm
      simp only [List.mem_map] at hm
      obtain ⟨e, he, rfl⟩ := hm
      exact hne (hk a (by simp) e he).symm
    rw [List.flatMap_cons, dictGet_append]
    constructor
    · intro wa hwa hname
      simp only [List.mem_cons] at hwa
      rcases hwa with rfl | hwa
      · cases hd : dictGet (K wa) n with
        | some v => rfl
        | none =>
          simp only
          apply ih2
          intro wb hwb he
          apply hn.1
          rw [hname, ← he]
          exact List.mem_map_of_mem hwb
      · have : a.name ≠ n := by
          intro he
          apply hn.1
          rw [he, ← hname]
          exact List.mem_map_of_mem hwa
        rw [hnone this]
        exact ih1 wa hwa hname
    · intro hall
      rw [hnone (hall a (by simp))]
      exact ih2 (fun wb hwb => hall wb (by simp [hwb]))

theorem attrs_ok (T : Tables C W R) (P : List (Pair C W R)) {s : List (Field C)} (L : List String)
    {A : List WAttr}
    {fs : List (String × Val C)} (hn : (A.map (·.name)).Nodup)
    (hA : ∀ wa ∈ A, wattrOk s wa = true) (hs : schemaOk s = true)
    (ho : orderOk s (fs.map (·.1)) = true) (hf : hasFields T s fs = true) :
    ∃ as, collect (A.map (writeAttr (wdenFields T fs))) = .ok as ∧ (fs = [] → as = []) ∧
      (∀ I txt name key c req tx (kids : List (RDen C R)),
        readerOk T P s L A I txt (.attr name key c req) = true →
        ∃ data, readItem as tx kids (.attr name key c req) = .ok data ∧
          ∀ e ∈ data, EntryOk T s L fs e) ∧
      (∀ f ∈ s, ∀ v, dictGet fs f.attr = some v → ∀ wa ∈ A, wa.field = f.attr →
        ∀ ri : RItem R, attrOk f wa ri = true → ∀ tx (kids : List (RDen C R)),
          readItem as tx kids ri =
            .ok [(f.param, some (f.cut (normVal T (f.alts.contains .numFloat) v)))]) := by
  simp only [schemaOk, Bool.and_eq_true, decide_eq_true_eq] at hs
  have hw : ∀ wa ∈ A, ∃ l, writeAttr (wdenFields T fs) wa = .ok l ∧ (∀ e ∈ l, e.1 = wa.name) ∧
      (dictGet fs wa.field = none → l = []) ∧
      ∀ v, dictGet fs wa.field = some v → ∃ f t, fieldOf s wa.field = some f ∧ l = [(wa.name, t)] ∧
        ∀ name key c req, attrOk f wa (.attr name key c req : RItem R) = true →
          c.run (some t) = .ok (some (f.cut (normVal T (f.alts.contains .numFloat) v))) :=
    fun wa hwa => attr_write T (hA wa hwa) ho hf
  let K : WAttr → List (String × String) := fun wa =>
    match writeAttr (wdenFields T fs) wa with
    | .ok l => l
    | .error _ => []
  have hK : ∀ wa ∈ A, writeAttr (wdenFields T fs) wa = .ok (K wa) ∧ (∀ e ∈ K wa, e.1 = wa.name) ∧
      (dictGet fs wa.field = none → K wa = []) ∧
      ∀ v, dictGet fs wa.field = some v → ∃ f t, fieldOf s wa.field = some f ∧
        K wa = [(wa.name, t)] ∧
        ∀ name key c req, attrOk f wa (.attr name key c req : RItem R) = true →
          c.run (some t) = .ok (some (f.cut (normVal T (f.alts.contains .numFloat) v))) := by
    intro wa hwa
    obtain ⟨l, h1, h2⟩ := hw wa hwa
    have : K wa = l := by simp [K, h1]
    rw [this]
    exact ⟨h1, h2⟩
  have hget : ∀ wa ∈ A, ∀ v, dictGet fs wa.field = some v → ∃ f t, fieldOf s wa.field = some f ∧
      dictGet (A.flatMap K) wa.name = some t ∧
        ∀ name key c req, attrOk f wa (.attr name key c req : RItem R) = true →
          c.run (some t) = .ok (some (f.cut (normVal T (f.alts.contains .numFloat) v))) := by
    intro wa hwa v hv
    obtain ⟨f, t, h1, h2, h3⟩ := (hK wa hwa).2.2.2 v hv
    refine ⟨f, t, h1, ?_, h3⟩
    rw [(dictGet_flatMap A K hn (fun wa hwa => (hK wa hwa).2.1) wa.name).1 wa hwa rfl, h2]
    simp [dictGet]
  refine ⟨A.flatMap K, collect_ok A _ K (fun wa hwa => (hK wa hwa).1), ?_, ?_, ?_⟩
  · rintro rfl
    rw [List.flatMap_eq_nil_iff]
    intro wa hwa
    exact (hK wa hwa).2.2.1 rfl
  · intro I txt name key c req tx kids hr
    simp only [readerOk, Bool.and_eq_true, List.all_eq_true, Bool.or_eq_true,
      decide_eq_true_eq, Bool.not_eq_true'] at hr
    obtain ⟨hr, hreq⟩ := hr
    by_cases hex : ∃ wa ∈ A, wa.name = name ∧ ∃ v, dictGet fs wa.field = some v
    · obtain ⟨wa, hwa, rfl, v, hv⟩ := hex
      obtain ⟨f, t, h1, h2, h3⟩ := hget wa hwa v hv
      have hr := hr wa hwa
      simp only [h1, ne_eq, not_true_eq_false, decide_false, Bool.false_eq_true, false_or,
        Bool.and_eq_true, decide_eq_true_eq] at hr
      obtain ⟨hnl, hr⟩ := hr
      obtain ⟨hm, hattr⟩ := fieldOf_mem h1
      refine ⟨[(key, some (f.cut (normVal T (f.alts.contains .numFloat) v)))], ?_, ?_⟩
      · simp only [readItem, h2, h3 _ _ _ _ hr]
      · simp only [List.mem_singleton, forall_eq]
        have hkey : f.param = key := by
          simp only [attrOk, Bool.and_eq_true, decide_eq_true_eq] at hr
          exact hr.1.1.1
        exact ⟨f, hm, hattr ▸ hnl, hkey.symm, Or.inl ⟨v, by rw [hattr, hv], rfl⟩⟩
    · have hnone : dictGet (A.flatMap K) name = none := by
        obtain ⟨g1, g2⟩ := dictGet_flatMap A K hn (fun wa hwa => (hK wa hwa).2.1) name
        by_cases hx : ∃ wa ∈ A, wa.name = name
        · obtain ⟨wa, hwa, hnm⟩ := hx
          rw [g1 wa hwa hnm, (hK wa hwa).2.2.1]
          · rfl
          · cases hd : dictGet fs wa.field with
            | none => rfl
            | some v => exact absurd ⟨wa, hwa, hnm, v, hd⟩ hex
        · exact g2 (fun wa hwa he => hx ⟨wa, hwa, he⟩)
      have hrq : req = false := by
        rcases hreq with h | h
        · exact h
        · simp only [List.any_eq_true, Bool.and_eq_true, decide_eq_true_eq] at h
          obtain ⟨wa, hwa, hnm, h⟩ := h
          cases hfo : fieldOf s wa.field with
          | none => simp [hfo] at h
          | some f =>
            simp only [hfo] at h
            simp only [orderOk, Bool.and_eq_true, List.all_eq_true, Bool.or_eq_true,
              Bool.not_eq_true', decide_eq_true_eq] at ho
            obtain ⟨hm, ha⟩ := fieldOf_mem hfo
            have := ho.2 f hm
            rw [h, ha] at this
            simp only [Bool.true_eq_false, false_or] at this
            cases hd : dictGet fs wa.field with
            | none => exact absurd this (dictGet_none.1 hd)
            | some v => exact absurd ⟨wa, hwa, hnm, v, hd⟩ hex
      refine ⟨[], ?_, by simp⟩
      simp [readItem, hnone, hrq]
  · intro f hfm v hv wa hwa hfield ri hok tx kids
    cases ri with
    | attr name key c req =>
      rw [← hfield] at hv
      obtain ⟨f', t, h1, h2, h3⟩ := hget wa hwa v hv
      rw [hfield, fieldOf_self hs.1 hfm] at h1
      simp only [Option.some.injEq] at h1
      subst h1
      have h3 := h3 _ _ _ _ hok
      simp only [attrOk, Bool.and_eq_true, decide_eq_true_eq] at hok
      have e1 := hok.1.1.1
      have e2 := hok.1.1.2
      simp only [readItem, ← e2, h2, h3, e1]
    | _ => simp [attrOk] at hok

/-! ### Child elements -/

/-- Statements about child elements. -/
def isChild : RItem R → Bool
  | .text _ _ | .noKids _ | .attr _ _ _ _ => false
  | _ => true

theorem readerOk_link {T : Tables C W R} {P : List (Pair C W R)} {s : List (Field C)}
    {L : List String}
    {A : List WAttr} {I : List (WItem C W)} {txt : Option (Option String)} {ri : RItem R}
    (h : readerOk T P s L A I txt ri = true) (hc : isChild ri = true) :
    ∀ wi ∈ I, ∀ f, fieldOf s wi.field = some f →
      apart T wi ri = true ∨ wi.field ∉ L ∧ linkOk T P f wi ri = true := by
  intro wi hwi f hf
  cases ri with
  | text | noKids | attr => simp [isChild] at hc
  | _ =>
    simp only [readerOk, Bool.and_eq_true, List.all_eq_true, Bool.or_eq_true] at h
    have := h.1 wi hwi
    simpa [hf] using this

/-- Statements that need something to read. -/
theorem readerOk_need {T : Tables C W R} {P : List (Pair C W R)} {s : List (Field C)}
    {L : List String}
    {A : List WAttr} {I : List (WItem C W)} {txt : Option (Option String)} {ri : RItem R}
    (h : readerOk T P s L A I txt ri = true) (hc : isChild ri = true)
    (as : List (String × String)) (tx : Option String) :
    readItem as tx ([] : List (RDen C R)) ri = .ok ([] : Data C) ∨
    (∃ key, readItem as tx ([] : List (RDen C R)) ri = .ok ([(key, some (.list []))] : Data C) ∧
      ∃ wi ∈ I, ∃ f, fieldOf s wi.field = some f ∧ wi.field ∉ L ∧ linkOk T P f wi ri = true ∧
        f.param = key ∧
        ∀ a, covers T a wi ri = true) ∨
    (∃ e, readItem as tx ([] : List (RDen C R)) ri = (.error e : Except PyErr (Data C)) ∧
      ∃ wi ∈ I, ∃ f, fieldOf s wi.field = some f ∧ f.req = true ∧ wi.field ∉ L ∧
        linkOk T P f wi ri = true ∧
        ∀ a, covers T a wi ri = true) := by
  have hcov : ∀ wi : WItem C W, (∀ tag key ralts miss ck, ri ≠ .one tag key .self ralts miss ck) →
      ∀ a, covers T a wi ri = true := by
    intro wi hne a
    unfold covers
    split
    · rename_i tag key ralts miss ck
      exact absurd rfl (hne _ _ _ _ _)
    · rfl
  cases ri with
  | text | noKids | attr => simp [isChild] at hc
  | required tag key =>
    right; right
    refine ⟨.parseError, by simp [readItem, childOf], ?_⟩
    simp only [readerOk, Bool.and_eq_true, List.any_eq_true] at h
    obtain ⟨wi, hwi, h⟩ := h.2
    cases hf : fieldOf s wi.field with
    | none => simp [hf] at h
    | some f =>
      simp only [hf, Bool.and_eq_true, decide_eq_true_eq] at h
      exact ⟨wi, hwi, f, hf, h.1.1, h.1.2, h.2, hcov wi (by simp)⟩
  | one tag key inner alts miss ck => left; simp [readItem, childOf]
  | many tag key alts miss max => left; simp [readItem, childOf]
  | admin => left; simp [readItem, childOf]
  | flat key alts miss =>
    right; left
    refine ⟨key, by simp [readItem, readList, collect], ?_⟩
    simp only [readerOk, Bool.and_eq_true, List.any_eq_true] at h
    obtain ⟨wi, hwi, h⟩ := h.2
    cases hf : fieldOf s wi.field with
    | none => simp [hf] at h
    | some f =>
      simp only [hf, Bool.and_eq_true, decide_eq_true_eq] at h
      obtain ⟨hnl, h⟩ := h
      refine ⟨wi, hwi, f, hf, hnl, h, ?_, hcov wi (by simp)⟩
      simp only [linkOk, Bool.and_eq_true, decide_eq_true_eq] at h
      exact h.1
  | choice key alts req =>
    cases req with
    | false =>
      left
      have : alts.filterMap (fun a => (childOf a.1 ([] : List (RDen C R))).map (fun k => (k, a.2))) = [] := by
        rw [List.filterMap_eq_nil_iff]; simp [childOf]
      simp [readItem, this]
    | true =>
      right; right
      have : alts.filterMap (fun a => (childOf a.1 ([] : List (RDen C R))).map (fun k => (k, a.2))) = [] := by
        rw [List.filterMap_eq_nil_iff]; simp [childOf]
      refine ⟨.parseError, by simp [readItem, this], ?_⟩
      simp only [readerOk, Bool.and_eq_true, List.any_eq_true] at h
      obtain ⟨wi, hwi, h⟩ := h.2
      cases hf : fieldOf s wi.field with
      | none => simp [hf] at h
      | some f =>
        simp only [hf, Bool.and_eq_true, decide_eq_true_eq] at h
        exact ⟨wi, hwi, f, hf, h.1.1, h.1.2, h.2, hcov wi (by simp)⟩

theorem linkOk_param {T : Tables C W R} {P : List (Pair C W R)} {f : Field C} {wi : WItem C W}
    {ri : RItem R} (h : linkOk T P f wi ri = true) : f.param = ri.key := by
  simp only [linkOk, Bool.and_eq_true, decide_eq_true_eq] at h
  exact h.1

/-- A statement for a lost attribute that is set writes one element. -/
theorem lost_write (T : Tables C W R) {f : Field C} {wi : WItem C W} {fs : List (String × Val C)}
    {v : Val C} (h : lostOk T f wi = true) (hd : dictGet fs wi.field = some v)
    (hty : hasField T f v = true) :
    ∃ ks, writeItem T (wdenFields T fs) wi = .ok ks ∧ ∀ x ∈ ks, xtag x ∈ itemTags T wi := by
  cases wi with
  | one g fld wrap alts miss =>
    cases wrap with
    | some w => simp [lostOk] at h
    | none =>
      simp only [lostOk, Bool.and_eq_true, decide_eq_true_eq, List.all_eq_true] at h
      obtain ⟨hsh, h⟩ := h
      obtain ⟨a, ha, hva⟩ := hasField_alt hty
      have hva := hva hsh
      have h := h a ha
      split at h
      · rename_i cls tag hva0 hp
        obtain ⟨t, h1, -, -⟩ := scalar_rt (c := .enum cls) (f := .enum) (b := false) T hva
          (by simp [scalarOk]) ⟨by simp, by simp⟩
        have hd' : dictGet (wdenFields T fs) fld = some (wden T v) := by
          simp only [WItem.field] at hd
          rw [wdenFields_get, hd]; rfl
        have hcall : writeCall T alts miss (wden T v) = .ok [.leaf tag [] t] := by
          simp only [writeCall, wden_val, pick_stat T hva alts _ hp, writeAtom, h1]
        have hw : written T (.enum cls) alts = some (.text tag .enum, tag) := by
          simp [written, hp, atomTag]
        simp only [writeItem, hd', wrapped, hcall]
        split
        · refine ⟨_, rfl, ?_⟩
          simp only [List.mem_singleton, forall_eq, itemTags, xtag]
          exact written_tags T hw
        · exact ⟨[], rfl, by simp⟩
      · simp at h
  | many => simp [lostOk] at h
  | each => simp [lostOk] at h

theorem items_ok (T : Tables C W R) (P : List (Pair C W R)) {s : List (Field C)} {L : List String}
    {A : List WAttr}
    {I : List (WItem C W)} {rs : List (RItem R)} {txt : Option (Option String)}
    {fs : List (String × Val C)} (hn : (I.map (·.field)).Nodup)
    (hI : ∀ wi ∈ I, writerOk T P s L rs wi = true)
    (hrs : ∀ ri ∈ rs, readerOk T P s L A I txt ri = true)
    (hchild : ∀ ri ∈ rs, ∀ wi ∈ I, ∀ f, linkOk T P f wi ri = true → isChild ri = true)
    (hfl : ∀ f ∈ s, floatsOk f = true) (hs : schemaOk s = true)
    (ho : orderOk s (fs.map (·.1)) = true) (hf : hasFields T s fs = true)
    (hG : ∀ k v, dictGet fs k = some v → GoodF T P v) :
    ∃ ks, collect (I.map (writeItem T (wdenFields T fs))) = .ok ks ∧ (fs = [] → ks = []) ∧
      (∀ x ∈ ks, ∃ wi ∈ I, xtag x ∈ itemTags T wi) ∧
      (∀ ri ∈ rs, isChild ri = true → ∀ as tx kids, Dens T ks kids →
        ∃ data, readItem as tx kids ri = .ok data ∧ ∀ e ∈ data, EntryOk T s L fs e) ∧
      (∀ f ∈ s, f.attr ∉ L → ∀ v, dictGet fs f.attr = some v → ∀ wi ∈ I, wi.field = f.attr →
        ∃ ri ∈ rs, ∀ as tx kids, Dens T ks kids →
          readItem as tx kids ri =
            .ok [(f.param, some (f.cut (normVal T (f.alts.contains .numFloat) v)))]) := by
  simp only [schemaOk, Bool.and_eq_true, decide_eq_true_eq] at hs
  obtain ⟨hna, hnp⟩ := hs
  have hreq : ∀ f ∈ s, f.req = true → ∃ v, dictGet fs f.attr = some v := by
    intro f hm hr
    simp only [orderOk, Bool.and_eq_true, List.all_eq_true, Bool.or_eq_true,
      Bool.not_eq_true', decide_eq_true_eq] at ho
    have := ho.2 f hm
    rw [hr] at this
    simp only [Bool.true_eq_false, false_or] at this
    cases hd : dictGet fs f.attr with
    | none => exact absurd this (dictGet_none.1 hd)
    | some v => exact ⟨v, rfl⟩
  -- every statement succeeds
  have hW : ∀ wi ∈ I, ∃ ks, writeItem T (wdenFields T fs) wi = .ok ks ∧
      (∀ x ∈ ks, xtag x ∈ itemTags T wi) ∧ (dictGet fs wi.field = none → ks = []) ∧
      (wi.field ∉ L → ∀ v, dictGet fs wi.field = some v → ∀ f, fieldOf s wi.field = some f →
        ∀ a ∈ f.alts,
        (f.shape = .one → hasS T v a = true) → ∀ g fld alts miss, wi = .one g fld none alts miss →
        ∀ x ∈ ks, ∃ wa, written T a alts = some (wa, xtag x)) := by
    intro wi hwi
    have hw := hI wi hwi
    unfold writerOk at hw
    cases hd : dictGet fs wi.field with
    | none =>
      have habs : absentOk wi = true := by
        cases hfo : fieldOf s wi.field with
        | none => simpa [hfo] using hw
        | some f =>
          simp only [hfo, Bool.and_eq_true, Bool.or_eq_true] at hw
          rcases hw.1 with hr | hr
          · obtain ⟨hm, ha⟩ := fieldOf_mem hfo
            obtain ⟨v, hv⟩ := hreq f hm hr
            rw [ha, hd] at hv
            simp at hv
          · exact hr
      have hd' : dictGet (wdenFields T fs) wi.field = none := by rw [wdenFields_get, hd]; rfl
      refine ⟨[], ?_, by simp, by simp, by simp⟩
      cases wi with
      | one g fld wrap alts miss =>
        simp only [WItem.field] at hd'
        simp [absentOk] at habs
        simp [writeItem, hd', habs]
      | many g fld wrap alts miss =>
        simp only [WItem.field] at hd'
        simp [absentOk] at habs
        simp only [writeItem, hd']
        by_cases hg : g = .always
        · have : wrap = none := by
            rcases habs with h | h
            · exact absurd hg h
            · exact h
          simp [hg, this, wrapped]
        · simp [hg]
      | each fld wrap alts miss =>
        simp only [WItem.field] at hd'
        simp [writeItem, hd']
    | some v =>
      obtain ⟨f, hfo, hty⟩ := hasFields_get hf hd
      have hd' : dictGet (wdenFields T fs) wi.field = some (wden T v) := by
        rw [wdenFields_get, hd]; rfl
      have hm := (fieldOf_mem hfo).1
      by_cases hlost : wi.field ∈ L
      · simp only [hfo, Bool.and_eq_true, hlost, if_true] at hw
        obtain ⟨ks, h1, h2⟩ := lost_write T hw.2 hd hty
        exact ⟨ks, h1, h2, by simp, fun h => absurd hlost h⟩
      simp only [hfo, Bool.and_eq_true, hlost, if_false, List.all_eq_true, List.any_eq_true] at hw
      obtain ⟨a, ha, hva⟩ := hasField_alt hty
      obtain ⟨ri, hri, hl, hc⟩ := hw.2 a ha
      obtain ⟨ks, h1, h2, h3, h4⟩ := link_cov T P hl (hfl f hm) hd' hty (hG _ _ hd) ha hva hc
      refine ⟨ks, h1, h2, by simp, ?_⟩
      intro _ v' hv' f' hf' a' ha' hva'
      simp only [Option.some.injEq] at hv'
      subst hv'
      rw [hfo] at hf'
      simp only [Option.some.injEq] at hf'
      subst hf'
      obtain ⟨ri', hri', hl', hc'⟩ := hw.2 a' ha'
      obtain ⟨ks', h1', h2', h3', h4'⟩ := link_cov T P hl' (hfl f hm) hd' hty (hG _ _ hd) ha' hva' hc'
      rw [h1] at h1'
      simp only [Except.ok.injEq] at h1'
      subst h1'
      exact h3'
  let K : WItem C W → List Xml := fun wi =>
    match writeItem T (wdenFields T fs) wi with
    | .ok l => l
    | .error _ => []
  have hK : ∀ wi ∈ I, writeItem T (wdenFields T fs) wi = .ok (K wi) ∧
      (∀ x ∈ K wi, xtag x ∈ itemTags T wi) ∧ (dictGet fs wi.field = none → K wi = []) ∧
      (wi.field ∉ L → ∀ v, dictGet fs wi.field = some v → ∀ f, fieldOf s wi.field = some f →
        ∀ a ∈ f.alts,
        (f.shape = .one → hasS T v a = true) → ∀ g fld alts miss, wi = .one g fld none alts miss →
        ∀ x ∈ K wi, ∃ wa, written T a alts = some (wa, xtag x)) := by
    intro wi hwi
    obtain ⟨l, h1, h2⟩ := hW wi hwi
    have : K wi = l := by simp [K, h1]
    rw [this]
    exact ⟨h1, h2⟩
  -- what is not apart from a reader statement is linked to it
  have hblind : ∀ wi ∈ I, ∀ ri, apart T wi ri = true →
      ((K wi).filter fun x => !blind ri (xtag x)) = [] := by
    intro wi hwi ri hap
    rw [List.filter_eq_nil_iff]
    intro x hx
    have := (hK wi hwi).2.1 x hx
    simp only [apart, List.all_eq_true] at hap
    simp [hap _ this]
  have hother : ∀ wi ∈ I, ∀ f, fieldOf s wi.field = some f → ∀ ri ∈ rs, isChild ri = true →
      linkOk T P f wi ri = true → ((I.flatMap K).filter fun x => !blind ri (xtag x)) =
        (K wi).filter fun x => !blind ri (xtag x) := by
    intro wi hwi f hfo ri hri hch hl
    rw [List.filter_flatMap]
    apply flatMap_single I (·.field) (fun wi => (K wi).filter fun x => !blind ri (xtag x)) hn wi hwi
    intro wj hwj hne
    cases hd : dictGet fs wj.field with
    | none => rw [(hK wj hwj).2.2.1 hd]; rfl
    | some v =>
      obtain ⟨f', hfo', -⟩ := hasFields_get hf hd
      rcases readerOk_link (hrs ri hri) hch wj hwj f' hfo' with h | h
      · exact hblind wj hwj ri h
      · exfalso
        apply hne
        have e := (linkOk_param h.2).trans (linkOk_param hl).symm
        obtain ⟨m1, a1⟩ := fieldOf_mem hfo
        obtain ⟨m2, a2⟩ := fieldOf_mem hfo'
        have := nodup_inj hnp m2 m1 e
        rw [← a1, ← a2, this]
  -- a linked statement that sees the value
  have hread : ∀ wi ∈ I, ∀ f, fieldOf s wi.field = some f → ∀ v, dictGet fs wi.field = some v →
      ∀ ri ∈ rs, isChild ri = true → linkOk T P f wi ri = true → ∀ a ∈ f.alts,
      (f.shape = .one → hasS T v a = true) → covers T a wi ri = true → ∀ as tx kids,
      Dens T ((K wi).filter fun x => !blind ri (xtag x)) kids →
      readItem as tx kids ri = .ok [(f.param, some (f.cut (normVal T (f.alts.contains .numFloat) v)))] := by
    intro wi hwi f hfo v hd ri hri hch hl a ha hva hc as tx kids hk
    have hd' : dictGet (wdenFields T fs) wi.field = some (wden T v) := by
      rw [wdenFields_get, hd]; rfl
    obtain ⟨f', hfo', hty⟩ := hasFields_get hf hd
    rw [hfo] at hfo'
    simp only [Option.some.injEq] at hfo'
    subst hfo'
    obtain ⟨ks, h1, h2, h3, h4⟩ :=
      link_cov T P hl (hfl f (fieldOf_mem hfo).1) hd' hty (hG _ _ hd) ha hva hc
    rw [(hK wi hwi).1] at h1
    simp only [Except.ok.injEq] at h1
    subst h1
    exact h4 as tx kids hk
  refine ⟨I.flatMap K, collect_ok I _ K (fun wi hwi => (hK wi hwi).1), ?_, ?_, ?_, ?_⟩
  · rintro rfl
    rw [List.flatMap_eq_nil_iff]
    intro wi hwi
    exact (hK wi hwi).2.2.1 rfl
  · intro x hx
    obtain ⟨wi, hwi, hx⟩ := List.mem_flatMap.1 hx
    exact ⟨wi, hwi, (hK wi hwi).2.1 x hx⟩
  · intro ri hri hch as tx kids hk
    have hk' := dens_filter (fun t => !blind ri t) hk
    rw [← readItem_blind]
    by_cases hex : ∃ wi ∈ I, (∃ v, dictGet fs wi.field = some v) ∧ apart T wi ri = false
    · obtain ⟨wi, hwi, ⟨v, hd⟩, hap⟩ := hex
      obtain ⟨f, hfo, hty⟩ := hasFields_get hf hd
      obtain ⟨hm, hattr⟩ := fieldOf_mem hfo
      have hl : wi.field ∉ L ∧ linkOk T P f wi ri = true := by
        rcases readerOk_link (hrs ri hri) hch wi hwi f hfo with h | h
        · rw [hap] at h; simp at h
        · exact h
      obtain ⟨hnl, hl⟩ := hl
      rw [hother wi hwi f hfo ri hri hch hl] at hk'
      obtain ⟨a, ha, hva⟩ := hasField_alt hty
      cases hc : covers T a wi ri with
      | true =>
        refine ⟨_, hread wi hwi f hfo v hd ri hri hch hl a ha hva hc as tx _ hk', ?_⟩
        simp only [List.mem_singleton, forall_eq]
        exact ⟨f, hm, hattr ▸ hnl, rfl, Or.inl ⟨v, by rw [hattr, hd], rfl⟩⟩
      | false =>
        refine ⟨[], link_not (f := f) T P hc ?_ as tx _ hk', by simp⟩
        exact (hK wi hwi).2.2.2 hnl v hd f hfo a ha hva
    · have hnil : ((I.flatMap K).filter fun x => !blind ri (xtag x)) = [] := by
        rw [List.filter_flatMap, List.flatMap_eq_nil_iff]
        intro wj hwj
        cases hd : dictGet fs wj.field with
        | none => rw [(hK wj hwj).2.2.1 hd]; rfl
        | some v =>
          cases hap : apart T wj ri with
          | true => exact hblind wj hwj ri hap
          | false => exact absurd ⟨wj, hwj, ⟨v, hd⟩, hap⟩ hex
      rw [hnil] at hk'
      rw [dens_nil hk']
      -- a linked attribute that is set cannot go unseen
      have hseen : ∀ wi ∈ I, ∀ f, fieldOf s wi.field = some f → linkOk T P f wi ri = true →
          (∀ a, covers T a wi ri = true) → ∀ v, dictGet fs f.attr = some v →
          readItem as tx ([] : List (RDen C R)) ri =
            .ok [(f.param, some (f.cut (normVal T (f.alts.contains .numFloat) v)))] := by
        intro wi hwi f hfo hl hc v hv
        obtain ⟨hm, hattr⟩ := fieldOf_mem hfo
        rw [hattr] at hv
        obtain ⟨f', hfo', hty⟩ := hasFields_get hf hv
        rw [hfo] at hfo'
        simp only [Option.some.injEq] at hfo'
        subst hfo'
        obtain ⟨a, ha, hva⟩ := hasField_alt hty
        apply hread wi hwi f hfo v hv ri hri hch hl a ha hva (hc a) as tx []
        rw [← hother wi hwi f hfo ri hri hch hl, hnil]
        exact .nil
      rcases readerOk_need (hrs ri hri) hch as tx with h | ⟨key, h, wi, hwi, f, hfo, hnl, hl, hp, hc⟩ |
        ⟨e, h, wi, hwi, f, hfo, hrq, hnl, hl, hc⟩
      · exact ⟨[], h, by simp⟩
      · obtain ⟨hm, hattr⟩ := fieldOf_mem hfo
        refine ⟨_, h, ?_⟩
        simp only [List.mem_singleton, forall_eq]
        refine ⟨f, hm, hattr ▸ hnl, hp.symm, Or.inr ⟨?_, rfl⟩⟩
        cases hd : dictGet fs f.attr with
        | none => rfl
        | some v =>
          have hx := hseen wi hwi f hfo hl hc v hd
          rw [h] at hx
          simp only [Except.ok.injEq, List.cons.injEq, Prod.mk.injEq, and_true,
            Option.some.injEq] at hx
          obtain ⟨f', hfo', hty⟩ := hasFields_get hf hd
          rw [fieldOf_self hna hm] at hfo'
          simp only [Option.some.injEq] at hfo'
          subst hfo'
          have := (fits_cut (hfl f hm) hty).2
          rw [← hx.2] at this
          simp [normal] at this
      · obtain ⟨hm, hattr⟩ := fieldOf_mem hfo
        obtain ⟨v, hv⟩ := hreq f hm hrq
        have hx := hseen wi hwi f hfo hl hc v hv
        rw [h] at hx
        simp at hx
  · intro f hfm hnl v hv wi hwi hfield
    have hfo : fieldOf s wi.field = some f := by rw [hfield]; exact fieldOf_self hna hfm
    have hd : dictGet fs wi.field = some v := by rw [hfield]; exact hv
    obtain ⟨f', hfo', hty⟩ := hasFields_get hf hd
    rw [hfo] at hfo'
    simp only [Option.some.injEq] at hfo'
    subst hfo'
    obtain ⟨a, ha, hva⟩ := hasField_alt hty
    have hw := hI wi hwi
    unfold writerOk at hw
    rw [← hfield] at hnl
    simp only [hfo, Bool.and_eq_true, hnl, if_false, List.all_eq_true, List.any_eq_true] at hw
    obtain ⟨ri, hri, hl, hc⟩ := hw.2 a ha
    have hch := hchild ri hri wi hwi f hl
    refine ⟨ri, hri, ?_⟩
    intro as tx kids hk
    have hk' := dens_filter (fun t => !blind ri t) hk
    rw [hother wi hwi f hfo ri hri hch hl] at hk'
    rw [← readItem_blind]
    exact hread wi hwi f hfo v hd ri hri hch hl a ha hva hc as tx _ hk'

theorem linkOk_child {T : Tables C W R} {P : List (Pair C W R)} {f : Field C} {wi : WItem C W}
    {ri : RItem R} (h : linkOk T P f wi ri = true) : isChild ri = true := by
  simp only [linkOk, Bool.and_eq_true] at h
  cases ri with
  | text | noKids | attr =>
    obtain ⟨-, h⟩ := h
    split at h <;> simp_all
  | _ => rfl

/-! ### Whole methods -/

/-- Statements that yield only correct entries, and together an entry for every attribute that
is set, build the object. -/
theorem build_all (T : Tables C W R) {c : C} {fs : List (String × Val C)} {rs : List (RItem R)}
    {as : List (String × String)} {tx : Option String} {kids : List (RDen C R)} (extra : Data C)
    (hn : narrows (T.ctor c) (T.schema c) = true)
    (hs : schemaOk (T.schema c) = true) (hfl : ∀ f ∈ T.schema c, floatsOk f = true)
    (ho : orderOk (T.schema c) (fs.map (·.1)) = true) (hf : hasFields T (T.schema c) fs = true)
    (hlr : ∀ f ∈ T.schema c, f.attr ∈ T.lost c → f.req = false)
    (h1 : ∀ ri ∈ rs, ∃ data, readItem as tx kids ri = .ok data ∧
      ∀ e ∈ data, EntryOk T (T.schema c) (T.lost c) fs e)
    (hex : ∀ e ∈ extra, EntryOk T (T.schema c) (T.lost c) fs e)
    (h2 : ∀ f ∈ T.schema c, f.attr ∉ T.lost c → ∀ v, dictGet fs f.attr = some v →
      (∃ e ∈ extra, e.1 = f.param) ∨
      ∃ ri ∈ rs, ∃ w, readItem as tx kids ri = .ok [(f.param, w)]) :
    ∃ data, collect (rs.map (readItem as tx kids)) = .ok data ∧
      build T c (data ++ extra) = .ok (normVal T false (.obj c fs)) := by
  let D : RItem R → Data C := fun ri =>
    match readItem as tx kids ri with
    | .ok l => l
    | .error _ => []
  have hD : ∀ ri ∈ rs, readItem as tx kids ri = .ok (D ri) ∧
      ∀ e ∈ D ri, EntryOk T (T.schema c) (T.lost c) fs e := by
    intro ri hri
    obtain ⟨l, h1, h2⟩ := h1 ri hri
    have : D ri = l := by simp [D, h1]
    rw [this]
    exact ⟨h1, h2⟩
  refine ⟨rs.flatMap D, collect_ok rs _ D (fun ri hri => (hD ri hri).1), ?_⟩
  apply build_ok T c fs _ hn hs hfl ho hf hlr
  · intro e he
    simp only [List.mem_append, List.mem_flatMap] at he
    rcases he with ⟨ri, hri, he⟩ | he
    · exact (hD ri hri).2 e he
    · exact hex e he
  · intro f hfm hnl v hv
    rcases h2 f hfm hnl v hv with ⟨e, he, hp⟩ | ⟨ri, hri, w, hw⟩
    · exact ⟨e, by simp [he], hp⟩
    · refine ⟨(f.param, w), ?_, rfl⟩
      simp only [List.mem_append, List.mem_flatMap]
      refine Or.inl ⟨ri, hri, ?_⟩
      simp [D, hw]

/-- What a pair of methods has to do for an object. -/
def PairGood (T : Tables C W R) (p : Pair C W R) (v : Val C) : Prop :=
  ∃ x tag, methTag T p.w p.arg = some tag ∧ (wden T v).write p.w p.arg = .ok [x] ∧
    xtag x = tag ∧
    (∀ acc t A f m, T.wm p.w p.arg = .leaf acc t A f m → ∃ as s, x = .leaf tag as s) ∧
    ∀ d tail k, rden T tail (domOf d x) = some k → k.read p.r = .ok (normVal T false v)

/-- A method made of statements: what it writes, and that its content is read back wherever it
stands. -/
theorem node_core (T : Tables C W R) (P : List (Pair C W R)) {p : Pair C W R}
    {fs : List (String × Val C)} {tag : String} {acc : Option C} {fixed : Option String}
    {A : List WAttr} {empty : Bool} {I : List (WItem C W)} {rs : List (RItem R)}
    (hlr : ∀ f ∈ T.schema p.c, f.attr ∈ T.lost p.c → f.req = false)
    (hn : narrows (T.ctor p.c) (T.schema p.c) = true)
    (hs : schemaOk (T.schema p.c) = true) (ht : methTag T p.w p.arg = some tag)
    (hw : T.wm p.w p.arg = .node acc fixed A empty I) (hr : T.rm p.r tag = .node p.c rs)
    (hacc : ∀ k, acc = some k → k ∈ T.mro p.c)
    (hnA : (A.map (·.name)).Nodup) (hnI : (I.map (·.field)).Nodup)
    (hA : ∀ wa ∈ A, wattrOk (T.schema p.c) wa = true)
    (hI : ∀ wi ∈ I, writerOk T P (T.schema p.c) (T.lost p.c) rs wi = true)
    (hrs : ∀ ri ∈ rs, readerOk T P (T.schema p.c) (T.lost p.c) A I none ri = true)
    (hfs : ∀ f ∈ T.schema p.c, fieldOk (T.lost p.c) A I none rs f = true)
    (ho : orderOk (T.schema p.c) (fs.map (·.1)) = true)
    (hf : hasFields T (T.schema p.c) fs = true)
    (hG : ∀ k v, dictGet fs k = some v → GoodF T P v) :
    ∃ as ks, tagOf fixed p.arg = some tag ∧
      collect (A.map (writeAttr (wdenFields T fs))) = .ok as ∧ (fs = [] → as = []) ∧
      collect (I.map (writeItem T (wdenFields T fs))) = .ok ks ∧ (fs = [] → ks = []) ∧
      (∀ x ∈ ks, ∃ wi ∈ I, xtag x ∈ itemTags T wi) ∧
      ∀ tx kids, Dens T ks kids →
        runReader T p.r tag as tx kids = .ok (normVal T false (.obj p.c fs)) := by
  have hfl : ∀ f ∈ T.schema p.c, floatsOk f = true := by
    intro f hfm
    have := hfs f hfm
    simp only [fieldOk, Bool.and_eq_true] at this
    exact this.1
  obtain ⟨as, a1, a2, a3, a4⟩ := attrs_ok T P (T.lost p.c) hnA hA hs ho hf
  obtain ⟨ks, k1, k2, kt, k3, k4⟩ := items_ok T P hnI hI hrs
    (fun ri hri wi hwi f hl => linkOk_child hl) hfl hs ho hf hG
  have htag : tagOf fixed p.arg = some tag := by simpa [methTag, hw] using ht
  refine ⟨as, ks, htag, a1, a2, k1, k2, kt, ?_⟩
  intro tx kids e3
  unfold runReader
  rw [hr]
  simp only
  have h1 : ∀ ri ∈ rs, ∃ data, readItem as tx kids ri = .ok data ∧
      ∀ e ∈ data, EntryOk T (T.schema p.c) (T.lost p.c) fs e := by
    intro ri hri
    by_cases hch : isChild ri = true
    · exact k3 ri hri hch as tx kids e3
    · have hro := hrs ri hri
      cases ri with
      | attr name key c req => exact a3 I none name key c req tx kids hro
      | text key c => simp [readerOk] at hro
      | noKids e => simp [readerOk] at hro
      | _ => simp [isChild] at hch
  have h2 : ∀ f ∈ T.schema p.c, f.attr ∉ T.lost p.c → ∀ v, dictGet fs f.attr = some v →
      (∃ e ∈ ([] : Data C), e.1 = f.param) ∨
      ∃ ri ∈ rs, ∃ w, readItem as tx kids ri = .ok [(f.param, w)] := by
    intro f hfm hnl v hv
    right
    have := hfs f hfm
    simp only [fieldOk, Bool.and_eq_true, Bool.or_eq_true, List.any_eq_true,
      decide_eq_true_eq] at this
    rcases this.2 with ((hl | ⟨wi, hwi, hfd⟩) | ⟨wa, hwa, hfd, ri, hri, hok⟩) | ⟨hx, -⟩
    · exact absurd hl hnl
    · obtain ⟨ri, hri, h⟩ := k4 f hfm hnl v hv wi hwi hfd
      exact ⟨ri, hri, _, h as tx kids e3⟩
    · exact ⟨ri, hri, _, a4 f hfm v hv wa hwa hfd ri hok tx kids⟩
    · simp at hx
  obtain ⟨data, d1, d2⟩ := build_all T [] hn hs hfl ho hf hlr h1 (by simp) h2
  rw [d1]
  simpa using d2
theorem node_rt (T : Tables C W R) (P : List (Pair C W R)) {p : Pair C W R}
    {fs : List (String × Val C)} {tag : String} {acc : Option C} {fixed : Option String}
    {A : List WAttr} {empty : Bool} {I : List (WItem C W)} {rs : List (RItem R)}
    (hlr : ∀ f ∈ T.schema p.c, f.attr ∈ T.lost p.c → f.req = false)
    (hn : narrows (T.ctor p.c) (T.schema p.c) = true)
    (hs : schemaOk (T.schema p.c) = true) (ht : methTag T p.w p.arg = some tag)
    (hw : T.wm p.w p.arg = .node acc fixed A empty I) (hr : T.rm p.r tag = .node p.c rs)
    (hacc : ∀ k, acc = some k → k ∈ T.mro p.c)
    (hnA : (A.map (·.name)).Nodup) (hnI : (I.map (·.field)).Nodup)
    (hA : ∀ wa ∈ A, wattrOk (T.schema p.c) wa = true)
    (hI : ∀ wi ∈ I, writerOk T P (T.schema p.c) (T.lost p.c) rs wi = true)
    (hrs : ∀ ri ∈ rs, readerOk T P (T.schema p.c) (T.lost p.c) A I none ri = true)
    (hfs : ∀ f ∈ T.schema p.c, fieldOk (T.lost p.c) A I none rs f = true)
    (ho : orderOk (T.schema p.c) (fs.map (·.1)) = true)
    (hf : hasFields T (T.schema p.c) fs = true)
    (hG : ∀ k v, dictGet fs k = some v → GoodF T P v) : PairGood T p (.obj p.c fs) := by
  obtain ⟨as, ks, htag, a1, a2, k1, k2, -, hall⟩ :=
    node_core T P hlr hn hs ht hw hr hacc hnA hnI hA hI hrs hfs ho hf hG
  have hread : ∀ (k : RDen C R) d tail x, rden T tail (domOf d x) = some k → k.tag = tag →
      k.attrs = as → Dens T ks k.kids → k.read p.r = .ok (normVal T false (.obj p.c fs)) := by
    intro k d tail x hk e1 e2 e3
    rw [rden_read hk, e1, e2]
    exact hall _ _ e3
  by_cases hemp : (empty && (wdenFields T fs).isEmpty) = true
  · have hfs0 : fs = [] := by
      simp only [Bool.and_eq_true] at hemp
      have := hemp.2
      rw [wdenFields_isEmpty] at this
      simpa using this
    refine ⟨.leaf tag [] "", tag, ht, ?_, rfl, ?_, ?_⟩
    · rw [wden_write_obj]
      unfold runWriter
      simp only [hw, htag, a1, hemp, if_true]
      rw [if_neg]
      cases acc <;> simp_all [isInst_obj]
    · intro acc' t A' f m h; rw [hw] at h; simp at h
    · intro d tail k hk
      obtain ⟨e1, e2, e3, e4⟩ := rden_leaf hk
      apply hread k d tail _ hk e1
      · rw [e2, a2 hfs0]
      · rw [e4, k2 hfs0]; exact .nil
  · refine ⟨.node tag as ks, tag, ht, ?_, rfl, ?_, ?_⟩
    · rw [wden_write_obj]
      unfold runWriter
      simp only [hw, htag, a1, k1]
      rw [if_neg, if_neg hemp]
      cases acc <;> simp_all [isInst_obj]
    · intro acc' t A' f m h; rw [hw] at h; simp at h
    · intro d tail k hk
      obtain ⟨e1, e2, e3⟩ := rden_node hk
      exact hread k d tail _ hk e1 e2 e3

theorem leaf_rt (T : Tables C W R) (P : List (Pair C W R)) {p : Pair C W R}
    {fs : List (String × Val C)} {tag : String} {acc : C} {ltag : String} {field : Option String}
    {miss : PyErr} {A : List WAttr} {rs : List (RItem R)}
    (hlr : ∀ f ∈ T.schema p.c, f.attr ∈ T.lost p.c → f.req = false)
    (hn : narrows (T.ctor p.c) (T.schema p.c) = true)
    (hs : schemaOk (T.schema p.c) = true) (ht : methTag T p.w p.arg = some tag)
    (hw : T.wm p.w p.arg = .leaf acc ltag A field miss) (hr : T.rm p.r tag = .node p.c rs)
    (hacc : acc ∈ T.mro p.c) (hnA : (A.map (·.name)).Nodup)
    (hA : ∀ wa ∈ A, wattrOk (T.schema p.c) wa = true)
    (hfield : ∀ k, field = some k → k ∉ T.lost p.c ∧ ∃ f, fieldOf (T.schema p.c) k = some f ∧
      f.req = true ∧
      f.shape = .one ∧ f.alts = [.str])
    (hrs : ∀ ri ∈ rs, readerOk T P (T.schema p.c) (T.lost p.c) A ([] : List (WItem C W)) (some field) ri = true)
    (hfs : ∀ f ∈ T.schema p.c, fieldOk (T.lost p.c) A ([] : List (WItem C W)) (some field) rs f = true)
    (ho : orderOk (T.schema p.c) (fs.map (·.1)) = true)
    (hf : hasFields T (T.schema p.c) fs = true)
    (hG : ∀ k v, dictGet fs k = some v → GoodF T P v) : PairGood T p (.obj p.c fs) := by
  have hfl : ∀ f ∈ T.schema p.c, floatsOk f = true := by
    intro f hfm
    have := hfs f hfm
    simp only [fieldOk, Bool.and_eq_true] at this
    exact this.1
  obtain ⟨as, a1, a2, a3, a4⟩ := attrs_ok T P (T.lost p.c) hnA hA hs ho hf
  obtain ⟨ks, k1, k2, kt, k3, k4⟩ := items_ok T P (I := ([] : List (WItem C W))) (by simp) (by simp) hrs
    (by simp) hfl hs ho hf hG
  have htag : ltag = tag := by simpa [methTag, hw] using ht
  subst htag
  have hks : ks = [] := by simpa [collect] using k1.symm
  subst hks
  -- the text written
  have htxt : ∃ t, (wden T (.obj p.c fs)).write p.w p.arg = .ok [.leaf ltag as t] ∧
      ∀ k, field = some k → k ∉ T.lost p.c ∧ ∃ f, fieldOf (T.schema p.c) k = some f ∧ t ≠ "" ∧
        dictGet fs k = some (.str t) := by
    rw [wden_write_obj]
    unfold runWriter
    simp only [hw, a1, isInst_obj, decide_eq_false_iff_not, hacc, not_true_eq_false, if_false]
    cases field with
    | none => exact ⟨"", rfl, by simp⟩
    | some k =>
      obtain ⟨hnl, f, hfo, hreq, hsh, hal⟩ := hfield k rfl
      obtain ⟨hm, hattr⟩ := fieldOf_mem hfo
      have hpres : ∃ v, dictGet fs k = some v := by
        simp only [orderOk, Bool.and_eq_true, List.all_eq_true, Bool.or_eq_true,
          Bool.not_eq_true', decide_eq_true_eq] at ho
        have := ho.2 f hm
        rw [hreq, hattr] at this
        simp only [Bool.true_eq_false, false_or] at this
        cases hd : dictGet fs k with
        | none => exact absurd this (dictGet_none.1 hd)
        | some v => exact ⟨v, rfl⟩
      obtain ⟨v, hv⟩ := hpres
      obtain ⟨f', hfo', hty⟩ := hasFields_get hf hv
      rw [hfo] at hfo'
      simp only [Option.some.injEq] at hfo'
      subst hfo'
      unfold hasField at hty
      simp only [hsh, hal, List.any_cons, List.any_nil, Bool.or_false] at hty
      cases v <;> simp [hasS] at hty
      rename_i t
      refine ⟨t, ?_, ?_⟩
      · simp [wdenFields_get, hv, wden_val, Fmt.run]
      · intro k' hk'
        simp only [Option.some.injEq] at hk'
        subst hk'
        exact ⟨hnl, f, hfo, hty, hv⟩
  obtain ⟨t, hwrite, htxt⟩ := htxt
  refine ⟨.leaf ltag as t, ltag, ht, hwrite, rfl, fun _ _ _ _ _ _ => ⟨as, t, rfl⟩, ?_⟩
  intro d tail k hk
  obtain ⟨e1, e2, e3, e4⟩ := rden_leaf hk
  rw [rden_read hk, e1, e2, e4]
  unfold runReader
  rw [hr]
  simp only
  have hnil : Dens T [] ([] : List (RDen C R)) := .nil
  have htext : ∀ key c, readerOk T P (T.schema p.c) (T.lost p.c) A ([] : List (WItem C W)) (some field)
      (.text key c : RItem R) = true → ∃ f ∈ T.schema p.c, f.attr ∉ T.lost p.c ∧ f.param = key ∧
      field = some f.attr ∧
      ∃ v, dictGet fs f.attr = some v ∧ readItem as k.text ([] : List (RDen C R)) (.text key c) =
        .ok [(key, some (f.cut (normVal T (f.alts.contains .numFloat) v)))] := by
    intro key c hro
    simp only [readerOk] at hro
    cases field with
    | none => simp at hro
    | some k' =>
      simp only at hro
      obtain ⟨hnl, f, hfo, hne, hv⟩ := htxt k' rfl
      simp only [hfo, Bool.and_eq_true, Bool.or_eq_true, decide_eq_true_eq] at hro
      obtain ⟨hm, hattr⟩ := fieldOf_mem hfo
      refine ⟨f, hm, hattr ▸ hnl, hro.1.1.1, by rw [hattr], .str t, by rw [hattr, hv], ?_⟩
      rw [e3, if_neg hne, cut_of hro.1.1.2 (by simp)]
      rcases hro.2 with rfl | rfl <;> simp [readItem, Conv.run, normVal]
  have h1 : ∀ ri ∈ rs, ∃ data, readItem as k.text ([] : List (RDen C R)) ri = .ok data ∧
      ∀ e ∈ data, EntryOk T (T.schema p.c) (T.lost p.c) fs e := by
    intro ri hri
    by_cases hch : isChild ri = true
    · exact k3 ri hri hch as k.text [] hnil
    · have hro := hrs ri hri
      cases ri with
      | attr name key c req => exact a3 [] (some field) name key c req k.text [] hro
      | text key c =>
        obtain ⟨f, hm, hnl, hp, -, v, hv, h⟩ := htext key c hro
        refine ⟨_, h, ?_⟩
        simp only [List.mem_singleton, forall_eq]
        exact ⟨f, hm, hnl, hp.symm, Or.inl ⟨v, hv, rfl⟩⟩
      | noKids e => exact ⟨[], by simp [readItem], by simp⟩
      | _ => simp [isChild] at hch
  have h2 : ∀ f ∈ T.schema p.c, f.attr ∉ T.lost p.c → ∀ v, dictGet fs f.attr = some v →
      (∃ e ∈ ([] : Data C), e.1 = f.param) ∨
      ∃ ri ∈ rs, ∃ w, readItem as k.text ([] : List (RDen C R)) ri = .ok [(f.param, w)] := by
    intro f hfm hnl v hv
    right
    have := hfs f hfm
    simp only [fieldOk, Bool.and_eq_true, Bool.or_eq_true, List.any_eq_true,
      decide_eq_true_eq] at this
    rcases this.2 with ((hl | ⟨wi, hwi, hfd⟩) | ⟨wa, hwa, hfd, ri, hri, hok⟩) | ⟨hx, ri, hri, hk'⟩
    · exact absurd hl hnl
    · simp at hwi
    · exact ⟨ri, hri, _, a4 f hfm v hv wa hwa hfd ri hok k.text []⟩
    · cases ri with
      | text key c =>
        simp only [decide_eq_true_eq] at hk'
        obtain ⟨f', hm', -, hp', -, v', hv', h⟩ := htext key c (hrs _ hri)
        exact ⟨_, hri, _, by rw [h, hk']⟩
      | _ => simp at hk'
  obtain ⟨data, d1, d2⟩ := build_all T [] hn hs hfl ho hf hlr h1 (by simp) h2
  rw [d1]
  simpa using d2

/-! ### Mixed content -/

/-- An inline element. -/
def inl (q : String × List (String × String) × String) : Part := .elem q.1 q.2.1 q.2.2

theorem merge_inl (qs : List (String × List (String × String) × String)) :
    mergeParts (qs.map inl) = qs.map inl := by
  induction qs with
  | nil => rfl
  | cons q qs ih => simp [inl, mergeParts] at ih ⊢; exact ih

theorem lead_inl (qs : List (String × List (String × String) × String)) :
    leadText (domParts (qs.map inl)) = none := by
  cases qs with
  | nil => rfl
  | cons q qs => simp [inl, domParts, leadText]

theorem merge_text (t : String) (ht : t ≠ "") (qs : List (String × List (String × String) × String)) :
    mergeParts (.text t :: qs.map inl) = .text t :: qs.map inl := by
  rw [mergeParts, if_neg ht, merge_inl]
  cases qs with
  | nil => rfl
  | cons q qs => simp [inl]

theorem parts_rt (T : Tables C W R) (P : List (Pair C W R)) {fal : List (STy C)} {b : Bool}
    {alts : List (Test C × WAtom W)} {tags : List (String × R)} {skipped : List String}
    (ha : ∀ a ∈ fal, partOk T P alts tags a = true) (vs : List (Val C))
    (hG : ∀ u ∈ vs, Good T P u) (hv : hasList T fal vs = true) (hn : vs.all notStr = true) :
    ∃ qs : List (String × List (String × String) × String),
      collect (vs.map fun v => writePart T alts (wden T v)) = .ok (qs.map inl) ∧
      ∀ text, collect ((rdenKids T (domParts (qs.map inl))).map (readPart text tags skipped)) =
        .ok (vs.map (normVal T b)) := by
  induction vs with
  | nil => exact ⟨[], rfl, fun _ => rfl⟩
  | cons v vs ih =>
    rw [hasList, Bool.and_eq_true] at hv
    simp only [List.all_cons, Bool.and_eq_true] at hn
    obtain ⟨qs, h1, h2⟩ := ih (fun u hu => hG u (by simp [hu])) hv.2 hn.2
    have hvv := hv.1
    simp only [List.any_eq_true] at hvv
    obtain ⟨a, haf, hva⟩ := hvv
    have hp := ha a haf
    unfold partOk at hp
    split at hp
    · cases v <;> simp [hasS] at hva
      simp [notStr] at hn
    · rename_i c
      split at hp
      · rename_i m arg hpick
        split at hp
        · rename_i acc ltag A f miss hwm
          split at hp
          · rename_i r htag
            rw [List.contains_iff_mem] at hp
            obtain ⟨x, tag, g1, g2, g3, g4, g5⟩ := hG v (by simp) _ hp hva
            obtain ⟨as, t, rfl⟩ := g4 _ _ _ _ _ hwm
            simp only [methTag, hwm, Option.some.injEq] at g1
            subst g1
            have hpk := pick_stat T hva alts _ hpick
            obtain ⟨c', fs', rfl⟩ : ∃ c' fs', v = .obj c' fs' := by
              cases v <;> simp [hasS] at hva
              exact ⟨_, _, rfl⟩
            have hwp : writePart T alts (wden T (.obj c' fs')) = .ok [inl (ltag, as, t)] := by
              unfold writePart
              simp only [wden_val, writeCall, hpk, writeAtom, g2, inl]
            refine ⟨(ltag, as, t) :: qs, ?_, ?_⟩
            · simp only [List.map_cons, collect, hwp, h1, List.singleton_append]
            · intro text
              obtain ⟨k, hk⟩ := rden_some T none 0 (.leaf ltag as t)
              have hkids : rdenKids T (domParts (((ltag, as, t) :: qs).map inl)) =
                  k :: rdenKids T (domParts (qs.map inl)) := by
                simp only [List.map_cons, inl, domParts, rdenKids]
                have := lead_inl qs
                rw [this]
                rw [domOf] at hk
                rw [hk]
              rw [hkids]
              have hr := g5 0 none k hk
              have e1 := rden_tag hk
              have e2 := rden_tail hk
              have hrp : readPart text tags skipped k = .ok [normVal T b (.obj c' fs')] := by
                unfold readPart
                simp only [e1, xtag, htag, hr, e2]
                rw [normVal_obj T b false]
              simp only [List.map_cons, collect, hrp, h2 text, List.singleton_append]
          · simp at hp
        · simp at hp
      · simp at hp
    · simp at hp

theorem mixed_rt (T : Tables C W R) (P : List (Pair C W R)) {p : Pair C W R}
    {fs : List (String × Val C)} {tag : String} {acc : C} {fixed : Option String} {field : String}
    {alts : List (Test C × WAtom W)} {A : List WAttr} {rs : List (RItem R)} {key : String}
    {tags : List (String × R)} {skipped : List String} {f0 : Field C}
    (hlr : ∀ f ∈ T.schema p.c, f.attr ∈ T.lost p.c → f.req = false)
    (hn : narrows (T.ctor p.c) (T.schema p.c) = true)
    (hs : schemaOk (T.schema p.c) = true) (ht : methTag T p.w p.arg = some tag)
    (hw : T.wm p.w p.arg = .mixed acc fixed A field alts)
    (hr : T.rm p.r tag = .mixed p.c rs key tags skipped)
    (hacc : acc ∈ T.mro p.c) (hnA : (A.map (·.name)).Nodup)
    (hA : ∀ wa ∈ A, wattrOk (T.schema p.c) wa = true)
    (hrs : ∀ ri ∈ rs, ∃ name k c req, ri = .attr name k c req ∧
      readerOk T P (T.schema p.c) (T.lost p.c) A ([] : List (WItem C W)) none ri = true)
    (hnl0 : field ∉ T.lost p.c) (hf0 : fieldOf (T.schema p.c) field = some f0) (hsh : f0.shape = .mixed)
    (hkey : f0.param = key) (hpart : ∀ a ∈ f0.alts, partOk T P alts tags a = true)
    (hfs : ∀ f ∈ T.schema p.c, f.attr = field ∨
      fieldOk (T.lost p.c) A ([] : List (WItem C W)) none rs f = true)
    (ho : orderOk (T.schema p.c) (fs.map (·.1)) = true)
    (hf : hasFields T (T.schema p.c) fs = true)
    (hG : ∀ k v, dictGet fs k = some v → GoodF T P v) : PairGood T p (.obj p.c fs) := by
  obtain ⟨hm0, hattr0⟩ := fieldOf_mem hf0
  have hs' := hs
  simp only [schemaOk, Bool.and_eq_true, decide_eq_true_eq] at hs'
  have hfl : ∀ f ∈ T.schema p.c, floatsOk f = true := by
    intro f hfm
    rcases hfs f hfm with h | h
    · have : f = f0 := by
        have := fieldOf_self hs'.1 hfm
        rw [h, hf0] at this
        simpa using this.symm
      subst this
      simp only [floatsOk, Bool.not_eq_true', Bool.and_eq_false_iff]
      left
      rw [Bool.eq_false_iff]
      intro hc
      rw [Bool.or_eq_true, List.contains_iff_mem, List.contains_iff_mem] at hc
      rcases hc with hc | hc
      · have := hpart _ hc
        simp [partOk] at this
      · have := hpart _ hc
        simp [partOk] at this
    · simp only [fieldOk, Bool.and_eq_true] at h
      exact h.1
  obtain ⟨as, a1, a2, a3, a4⟩ := attrs_ok T P (T.lost p.c) hnA hA hs ho hf
  have htag : tagOf fixed p.arg = some tag := by simpa [methTag, hw] using ht
  -- the pieces
  have hps : ∃ ps vs, (wden T (.obj p.c fs)).write p.w p.arg = .ok [.mixed tag as ps] ∧
      (∃ text, leadText (domParts (mergeParts ps)) = text ∧
        ∃ us, collect ((rdenKids T (domParts (mergeParts ps))).map (readPart text tags skipped)) = .ok us ∧
          (match text with | some t => [Val.str t] | none => []) ++ us = vs) ∧
      ((dictGet fs field = none ∧ vs = []) ∨ (∃ v, dictGet fs field = some v ∧
        normVal T (f0.alts.contains .numFloat) v = .list vs)) := by
    rw [wden_write_obj]
    unfold runWriter
    simp only [hw, htag, a1, isInst_obj, decide_eq_false_iff_not, hacc, not_true_eq_false, if_false,
      wdenFields_get]
    cases hd : dictGet fs field with
    | none =>
      refine ⟨[], [], rfl, ⟨none, rfl, [], rfl, rfl⟩, Or.inl ⟨rfl, rfl⟩⟩
    | some v =>
      obtain ⟨f', hfo', hty⟩ := hasFields_get hf hd
      rw [hf0] at hfo'
      simp only [Option.some.injEq] at hfo'
      subst hfo'
      unfold hasField at hty
      simp only [hsh] at hty
      cases v <;> simp at hty
      rename_i vs
      obtain ⟨⟨hne, htl⟩, hall⟩ := hty
      have hgood := (hG _ _ hd).2 vs rfl
      simp only [Option.map_some, wden_elems, List.map_map]
      by_cases hstr : ∃ t rest, vs = .str t :: rest
      · obtain ⟨t, rest, rfl⟩ := hstr
        rw [hasList, Bool.and_eq_true] at hall
        have ht0 : t ≠ "" := by
          have := hall.1
          simp only [List.any_eq_true] at this
          obtain ⟨a, ha, hva⟩ := this
          have hpa := hpart a ha
          cases a <;> simp [hasS, partOk] at hva hpa
          exact hva
        obtain ⟨qs, q1, q2⟩ := parts_rt (b := f0.alts.contains .numFloat) (skipped := skipped)
          T P hpart rest (fun u hu => hgood u (by simp [hu])) hall.2 (by simpa using htl)
        refine ⟨.text t :: qs.map inl,
          .str t :: rest.map (normVal T (f0.alts.contains .numFloat)), ?_, ?_, Or.inr ⟨_, rfl, ?_⟩⟩
        · have : collect ((Val.str t :: rest).map (writePart T alts ∘ wden T)) =
              .ok (.text t :: qs.map inl) := by
            have q1' : collect (rest.map (writePart T alts ∘ wden T)) = .ok (qs.map inl) := q1
            simp only [List.map_cons, collect, Function.comp, writePart, wden_val] at q1' ⊢
            rw [q1']
            rfl
          rw [this]
        · rw [merge_text t ht0]
          refine ⟨some t, by simp [domParts, leadText, ht0], rest.map (normVal T (f0.alts.contains .numFloat)), ?_, rfl⟩
          simp only [domParts, rdenKids, rden]
          exact q2 (some t)
        · simp [normVal, normList_map]
      · have hnot : vs.all notStr = true := by
          cases vs with
          | nil => rfl
          | cons u us =>
            simp only [List.all_cons, Bool.and_eq_true]
            refine ⟨?_, by simpa using htl⟩
            cases u with
            | str t => exact absurd ⟨t, us, rfl⟩ hstr
            | _ => rfl
        obtain ⟨qs, q1, q2⟩ := parts_rt (b := f0.alts.contains .numFloat) (skipped := skipped)
          T P hpart vs hgood hall hnot
        refine ⟨qs.map inl, vs.map (normVal T (f0.alts.contains .numFloat)), ?_, ?_, Or.inr ⟨_, rfl, ?_⟩⟩
        · have : collect (vs.map (writePart T alts ∘ wden T)) = .ok (qs.map inl) := q1
          rw [this]
        · rw [merge_inl]
          exact ⟨none, lead_inl qs, _, q2 none, rfl⟩
        · simp [normVal, normList_map]
  obtain ⟨ps, vs, hwrite, ⟨text, htext, us, hus, hvs⟩, hval⟩ := hps
  refine ⟨.mixed tag as ps, tag, ht, hwrite, rfl, ?_, ?_⟩
  · intro acc' t A' f m h; rw [hw] at h; simp at h
  intro d tail k hk
  have hk' : k.tag = tag ∧ k.attrs = as ∧ k.text = text ∧ k.kids = rdenKids T (domParts (mergeParts ps)) := by
    simp only [domOf, rden, Option.some.injEq] at hk
    subst hk
    exact ⟨rfl, rfl, htext, rfl⟩
  obtain ⟨e1, e2, e3, e4⟩ := hk'
  rw [rden_read hk, e1, e2, e3, e4]
  unfold runReader
  rw [hr]
  simp only [hus]
  have h1 : ∀ ri ∈ rs, ∃ data, readItem as text (rdenKids T (domParts (mergeParts ps))) ri = .ok data ∧
      ∀ e ∈ data, EntryOk T (T.schema p.c) (T.lost p.c) fs e := by
    intro ri hri
    obtain ⟨name, k', c, req, rfl, hro⟩ := hrs ri hri
    exact a3 [] none name k' c req _ _ hro
  have hx : ∀ e ∈ ([(key, some (.list vs))] : Data C), EntryOk T (T.schema p.c) (T.lost p.c) fs e := by
    simp only [List.mem_singleton, forall_eq]
    refine ⟨f0, hm0, hattr0 ▸ hnl0, hkey.symm, ?_⟩
    rw [hattr0]
    rcases hval with ⟨h, rfl⟩ | ⟨v, h, h'⟩
    · exact Or.inr ⟨h, rfl⟩
    · exact Or.inl ⟨v, h, by rw [h', cut_of hsh (by simp)]⟩
  have h2 : ∀ f ∈ T.schema p.c, f.attr ∉ T.lost p.c → ∀ v, dictGet fs f.attr = some v →
      (∃ e ∈ ([(key, some (.list vs))] : Data C), e.1 = f.param) ∨
      ∃ ri ∈ rs, ∃ w, readItem as text (rdenKids T (domParts (mergeParts ps))) ri = .ok [(f.param, w)] := by
    intro f hfm hnl v hv
    rcases hfs f hfm with h | h
    · left
      have : f = f0 := by
        have := fieldOf_self hs'.1 hfm
        rw [h, hf0] at this
        simpa using this.symm
      subst this
      exact ⟨_, List.mem_singleton.2 rfl, hkey.symm⟩
    · right
      simp only [fieldOk, Bool.and_eq_true, Bool.or_eq_true, List.any_eq_true,
        decide_eq_true_eq] at h
      rcases h.2 with ((hl | ⟨wi, hwi, hfd⟩) | ⟨wa, hwa, hfd, ri, hri, hok⟩) | ⟨hx, -⟩
      · exact absurd hl hnl
      · simp at hwi
      · exact ⟨ri, hri, _, a4 f hfm v hv wa hwa hfd ri hok text _⟩
      · simp at hx
  obtain ⟨data, d1, d2⟩ := build_all T [(key, some (.list vs))] hn hs hfl ho hf hlr h1 hx h2
  rw [d1]
  simp only
  rw [← d2, ← hvs]
  cases text <;> rfl

/-! ### All methods -/

theorem pair_rt (T : Tables C W R) (P : List (Pair C W R)) {p : Pair C W R} (hp : pairOk T P p = true)
    {fs : List (String × Val C)}
    (ho : orderOk (T.schema p.c) (fs.map (·.1)) = true)
    (hf : hasFields T (T.schema p.c) fs = true)
    (hG : ∀ k v, dictGet fs k = some v → GoodF T P v) : PairGood T p (.obj p.c fs) := by
  unfold pairOk at hp
  simp only [Bool.and_eq_true] at hp
  obtain ⟨⟨⟨hlr, hs⟩, hn⟩, hp⟩ := hp
  simp only [List.all_eq_true, Bool.or_eq_true, decide_eq_true_eq, Bool.not_eq_true'] at hlr
  replace hlr : ∀ f ∈ T.schema p.c, f.attr ∈ T.lost p.c → f.req = false :=
    fun f hf hl => (hlr f hf).resolve_left (fun h => h hl)
  cases ht : methTag T p.w p.arg with
  | none => simp [ht] at hp
  | some tag =>
    simp only [ht] at hp
    split at hp
    · rename_i acc fixed A empty I c rs hw hr
      simp only [Bool.and_eq_true, decide_eq_true_eq, List.all_eq_true] at hp
      obtain ⟨⟨⟨⟨⟨⟨⟨rfl, hacc⟩, hnA⟩, hnI⟩, hA⟩, hI⟩, hrs⟩, hfs⟩ := hp
      refine node_rt T P hlr hn hs ht hw hr ?_ hnA hnI hA hI hrs hfs ho hf hG
      rintro k rfl
      simpa using hacc
    · rename_i acc ltag A field miss c rs hw hr
      simp only [Bool.and_eq_true, decide_eq_true_eq, List.all_eq_true] at hp
      obtain ⟨⟨⟨⟨⟨⟨rfl, hacc⟩, hnA⟩, hA⟩, hfield⟩, hrs⟩, hfs⟩ := hp
      refine leaf_rt T P hlr hn hs ht hw hr hacc hnA hA ?_ hrs hfs ho hf hG
      rintro k rfl
      simp only at hfield
      cases hfo : fieldOf (T.schema p.c) k with
      | none => simp [hfo] at hfield
      | some f =>
        simp only [hfo, Bool.and_eq_true, decide_eq_true_eq] at hfield
        exact ⟨hfield.1.1.1, f, rfl, hfield.1.1.2, hfield.1.2, hfield.2⟩
    · rename_i acc fixed A field alts c rs key tags skipped hw hr
      simp only [Bool.and_eq_true, decide_eq_true_eq, List.all_eq_true, Bool.or_eq_true] at hp
      obtain ⟨⟨⟨⟨⟨⟨rfl, hacc⟩, hnA⟩, hA⟩, hrs⟩, hfield⟩, hfs⟩ := hp
      cases hfo : fieldOf (T.schema p.c) field with
      | none => simp [hfo] at hfield
      | some f0 =>
        simp only [hfo, Bool.and_eq_true, decide_eq_true_eq, List.all_eq_true] at hfield
        refine mixed_rt T P hlr hn hs ht hw hr hacc hnA hA ?_ hfield.1.1.1 hfo
          hfield.1.1.2 hfield.1.2 hfield.2 hfs ho hf hG
        intro ri hri
        have := hrs ri hri
        cases ri with
        | attr name k c req => exact ⟨name, k, c, req, rfl, this⟩
        | _ => simp at this
    · simp at hp

/-- The same as `node_core` for a checked pair. -/
theorem pair_node (T : Tables C W R) (P : List (Pair C W R)) {p : Pair C W R} (hp : pairOk T P p = true)
    {fs : List (String × Val C)} {tag : String} {acc : Option C} {fixed : Option String}
    {A : List WAttr} {empty : Bool} {I : List (WItem C W)} {rs : List (RItem R)} {c : C}
    (ht : methTag T p.w p.arg = some tag)
    (hw : T.wm p.w p.arg = .node acc fixed A empty I) (hr : T.rm p.r tag = .node c rs)
    (ho : orderOk (T.schema p.c) (fs.map (·.1)) = true)
    (hf : hasFields T (T.schema p.c) fs = true)
    (hG : ∀ k v, dictGet fs k = some v → GoodF T P v) :
    ∃ as ks, tagOf fixed p.arg = some tag ∧
      collect (A.map (writeAttr (wdenFields T fs))) = .ok as ∧ (fs = [] → as = []) ∧
      collect (I.map (writeItem T (wdenFields T fs))) = .ok ks ∧ (fs = [] → ks = []) ∧
      (∀ x ∈ ks, ∃ wi ∈ I, xtag x ∈ itemTags T wi) ∧
      ∀ tx kids, Dens T ks kids →
        runReader T p.r tag as tx kids = .ok (normVal T false (.obj p.c fs)) := by
  unfold pairOk at hp
  simp only [Bool.and_eq_true] at hp
  obtain ⟨⟨⟨hlr, hs⟩, hn⟩, hp⟩ := hp
  simp only [List.all_eq_true, Bool.or_eq_true, decide_eq_true_eq, Bool.not_eq_true'] at hlr
  replace hlr : ∀ f ∈ T.schema p.c, f.attr ∈ T.lost p.c → f.req = false :=
    fun f hf hl => (hlr f hf).resolve_left (fun h => h hl)
  simp only [ht, hw, hr, Bool.and_eq_true, decide_eq_true_eq, List.all_eq_true] at hp
  obtain ⟨⟨⟨⟨⟨⟨⟨rfl, hacc⟩, hnA⟩, hnI⟩, hA⟩, hI⟩, hrs⟩, hfs⟩ := hp
  refine node_core T P hlr hn hs ht hw hr ?_ hnA hnI hA hI hrs hfs ho hf hG
  rintro k rfl
  simpa using hacc

theorem all_good (T : Tables C W R) (P : List (Pair C W R)) (h : allOk T P = true) :
    ∀ v : Val C, Good T P v := by
  have key : ∀ n : Nat, ∀ v : Val C, sizeOf v < n → Good T P v := by
    intro n
    induction n with
    | zero => intro v hv; omega
    | succ n ih =>
      intro v hv p hp hty
      cases v <;> simp [hasS] at hty
      rename_i c fs
      obtain ⟨⟨rfl, ho⟩, hf⟩ := hty
      simp only [allOk, List.all_eq_true] at h
      refine pair_rt T P (h p hp) ho hf ?_
      intro k u hu
      have hmem := dictGet_mem _ _ _ hu
      have hlt : sizeOf u < sizeOf fs := by
        have h1 := List.sizeOf_lt_of_mem hmem
        simp at h1
        omega
      have hn : sizeOf fs < n := by simp at hv; omega
      refine ⟨ih u (by omega), ?_⟩
      rintro vs rfl w hw
      have h2 := List.sizeOf_lt_of_mem hw
      simp at hlt
      exact ih w (by omega)
  intro v
  exact key (sizeOf v + 1) v (by omega)

end Verif.Codec
