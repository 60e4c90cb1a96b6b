import Verif.Codec.Facts
/-
One writer statement and the reader statement for it.
-/
set_option linter.unusedSimpArgs false
set_option linter.unusedVariables false
set_option linter.unusedSectionVars false
namespace Verif.Codec
open Verif.Py Verif.Enums Verif.Num Verif.Xml Verif.Xml.Spec
open Verif.Ref (RefObj construct DestArg refClasses)

variable {C W R : Type} [DecidableEq C] [DecidableEq W] [DecidableEq R]

/-- The object is written and read back by all pairs for its class. -/
def Good (T : Tables C W R) (P : List (Pair C W R)) (v : Val C) : Prop :=
  ∀ p ∈ P, hasS T v (.cls p.c) = true →
    ∃ x tag, methTag T p.w p.arg = some tag ∧ (wden T v).write p.w p.arg = .ok [x] ∧
      xtag x = tag ∧
      (∀ acc t A f m, T.wm p.w p.arg = .leaf acc t A f m → ∃ as s, x = .leaf tag as s) ∧
      ∀ d tail k, rden T tail (domOf d x) = some k → k.read p.r = .ok (normVal T false v)

/-- The same for the value of an attribute. -/
def GoodF (T : Tables C W R) (P : List (Pair C W R)) (v : Val C) : Prop :=
  Good T P v ∧ ∀ vs, v = .list vs → ∀ u ∈ vs, Good T P u

theorem construct_given {cn value m : String} {acc : List String} {dflt : Option String}
    (h : dictGet refClasses cn = some ⟨acc, dflt⟩) (hm : m ∈ acc) :
    construct cn value (.given (.enum "IdentifiableSubTypes" m)) = .ok ⟨cn, value, m⟩ := by
  unfold construct
  rw [h]
  simp [Verif.Ref.baseInit, Verif.Ref.checkDest, Verif.Ref.destIn, hm]

theorem construct_omitted {cn value m : String} {dflt : Option String}
    (h : dictGet refClasses cn = some ⟨[m], dflt⟩) (hd : dflt = none ∨ dflt = some m) :
    construct cn value .omitted = .ok ⟨cn, value, m⟩ := by
  unfold construct
  rw [h]
  rcases hd with rfl | rfl <;>
    simp [Verif.Ref.baseInit, Verif.Ref.checkDest, Verif.Ref.destIn]

theorem wden_write_ref (T : Tables C W R) (r : RefObj) (m : W) (arg : Option String) :
    (wden T (.ref r : Val C)).write m arg = runWriter T m arg (.ref r) [] := by
  simp [wden, WDen.write]

theorem wden_write_obj (T : Tables C W R) (c : C) (fs : List (String × Val C)) (m : W)
    (arg : Option String) :
    (wden T (.obj c fs)).write m arg = runWriter T m arg (.obj c fs) (wdenFields T fs) := by
  simp [wden, WDen.write]

/-- References. -/
theorem ref_rt (T : Tables C W R) {r : RefObj} {m : W} {arg : Option String} {rm : R}
    (hv : refValOk r = true) (hr : refOk T r.cls m arg rm = true) :
    ∃ x t, methTag T m arg = some t ∧ (wden T (.ref r : Val C)).write m arg = .ok [x] ∧
      xtag x = t ∧ ∀ d tail k, rden T tail (domOf d x) = some k → k.read rm = .ok (.ref r) := by
  simp only [refValOk, Bool.and_eq_true, decide_eq_true_eq] at hv
  obtain ⟨⟨hne, hen⟩, hacc⟩ := hv
  obtain ⟨dt, hd1, hd2, hd3⟩ := enum_text hen
  cases hrc : dictGet refClasses r.cls with
  | none => simp [hrc] at hacc
  | some rc =>
    obtain ⟨acc, dflt⟩ := rc
    simp only [hrc, decide_eq_true_eq] at hacc
    unfold refOk at hr
    cases ht : methTag T m arg with
    | none =>
      rw [ht] at hr
      cases hw : T.wm m arg <;> simp [hw] at hr
    | some tag =>
      cases hw : T.wm m arg <;> simp [hw, ht] at hr
      rename_i wacc fixed
      obtain ⟨hwa, hr⟩ := hr
      have htag : tagOf fixed arg = some tag := by simpa [methTag, hw] using ht
      refine ⟨.leaf tag [("DEST", dt)] r.value, tag, rfl, ?_, rfl, ?_⟩
      · rw [wden_write_ref]
        simp only [runWriter, hw, htag, hd1]
        rcases hwa with rfl | rfl <;> simp
      · intro d tail k hk
        obtain ⟨k1, k2, k3, k4⟩ := rden_leaf hk
        rw [rden_read hk, k1, k2, k3, k4]
        unfold runReader
        cases hrm : T.rm rm tag <;> simp [hrm, hrc] at hr
        rename_i cls' dest
        obtain ⟨rfl, hr⟩ := hr
        simp only [dictGet, if_true, hne, if_false, Option.getD_some]
        cases dest with
        | none =>
          simp only [hd3]
          rw [construct_given hrc hacc]
        | some d' =>
          simp only at hr
          split at hr
          · rename_i mm hmm
            simp only [Bool.and_eq_true, decide_eq_true_eq, Bool.or_eq_true] at hr
            obtain ⟨h1, h2⟩ := hr
            simp only [List.mem_singleton] at hacc
            have : dt = d' := by
              rw [hacc, h1] at hd1
              simpa using hd1.symm
            simp only [this, if_true]
            rw [construct_omitted hrc h2, ← hacc]
          · simp at hr

/-- Interval limits. -/
theorem limit_rt (T : Tables C W R) {n : PyNum} {m : Member} (hn : numOk n = true)
    (hm : enumOk m = true) (hc : m.cls = "IntervalType") (tag : String) :
    ∃ x, writeLimit tag (.limit n m : Val C) = .ok [x] ∧ xtag x = tag ∧
      ∀ d tail (k : RDen C R), rden T tail (domOf d x) = some k →
        readLimit k = .ok (some (.limit (canonNum n) m)) := by
  obtain ⟨i, h1, h2, h3⟩ := enum_text hm
  obtain ⟨t, g1, g2, g3⟩ := number_text n hn
  refine ⟨.leaf tag [("INTERVAL-TYPE", i)] (String.ofList t), ?_, rfl, ?_⟩
  · simp [writeLimit, h1, g1]
  · intro d tail k hk
    obtain ⟨k1, k2, k3, k4⟩ := rden_leaf hk
    rw [if_neg (ofList_ne g2)] at k3
    unfold readLimit
    rw [k3, k2]
    rw [hc] at h3
    simp [dictGet, h3, g3]

/-- One value. -/
theorem atom_rt (T : Tables C W R) (P : List (Pair C W R)) {v : Val C} {a : STy C} {b : Bool}
    {wa : WAtom W} {ra : RAtom R} (hG : Good T P v) (hv : hasS T v a = true)
    (ha : atomOk T P a wa ra = true) (hb : numOf a b) :
    ∃ x t, atomTag T wa = some t ∧ writeAtom (wden T v) wa = .ok [x] ∧ xtag x = t ∧
      ∀ d tail k, rden T tail (domOf d x) = some k →
        readAtom k ra = .ok (some (normVal T b v)) := by
  cases wa with
  | text tag f =>
    cases ra with
    | conv c =>
      obtain ⟨s, h1, h2, h3⟩ := scalar_rt T hv (by simpa [atomOk] using ha) hb
      refine ⟨.leaf tag [] s, tag, rfl, by simp [writeAtom, h1], rfl, ?_⟩
      intro d tail k hk
      obtain ⟨k1, k2, k3, k4⟩ := rden_leaf hk
      rw [if_neg h2] at k3
      simp only [readAtom, k3, h3]
    | meth r => simp [atomOk] at ha
    | limit => simp [atomOk] at ha
  | limit tag =>
    cases ra with
    | limit =>
      simp [atomOk] at ha
      subst ha
      cases v <;> simp [hasS] at hv
      rename_i n m
      obtain ⟨x, h1, h2, h3⟩ := limit_rt (R := R) T hv.1.1 hv.2 hv.1.2 tag
      refine ⟨x, tag, rfl, by simp [writeAtom, h1], h2, ?_⟩
      intro d tail k hk
      simp only [readAtom, normVal]
      exact h3 d tail k hk
    | meth r => simp [atomOk] at ha
    | conv c => simp [atomOk] at ha
  | meth m arg =>
    cases ra with
    | limit => simp [atomOk] at ha
    | conv c => simp [atomOk] at ha
    | meth r =>
      have href : ∀ (rv : RefObj), v = .ref rv → refValOk rv = true →
          refOk T rv.cls m arg r = true → ∃ x t, atomTag T (.meth m arg : WAtom W) = some t ∧
            writeAtom (wden T v) (.meth m arg : WAtom W) = .ok [x] ∧ xtag x = t ∧
            ∀ d tail k, rden T tail (domOf d x) = some k →
              readAtom k (.meth r) = .ok (some (normVal T b v)) := by
        rintro rv rfl h1 h2
        obtain ⟨x, t, g1, g2, g3, g4⟩ := ref_rt T h1 h2
        refine ⟨x, t, g1, g2, g3, ?_⟩
        intro d tail k hk
        simp only [readAtom, g4 d tail k hk, normVal]
      cases a <;> simp [atomOk] at ha
      · cases v <;> simp [hasS] at hv
        rename_i rv
        obtain ⟨rfl, hv⟩ := hv
        exact href rv rfl hv ha
      · cases v <;> simp [hasS] at hv
        rename_i rv
        obtain ⟨⟨rfl, hv⟩, -⟩ := hv
        exact href rv rfl hv ha
      · rename_i c
        obtain ⟨x, tag, g1, g2, g3, -, g4⟩ := hG _ ha hv
        refine ⟨x, tag, g1, g2, g3, ?_⟩
        intro d tail k hk
        simp only [readAtom, g4 d tail k hk]
        cases v <;> simp [hasS] at hv
        rw [normVal_obj]

/-- One value through the branches. -/
theorem call_rt (T : Tables C W R) (P : List (Pair C W R)) {v : Val C} {a : STy C} {b : Bool}
    {alts : List (Test C × WAtom W)} {ralts : RAlts R} (hG : Good T P v) (hv : hasS T v a = true)
    (ha : callOk T P alts ralts a = true) (hb : numOf a b) :
    ∃ x wa t, written T a alts = some (wa, t) ∧ (∀ miss, writeCall T alts miss (wden T v) = .ok [x]) ∧
      xtag x = t ∧ (∃ ra, pickTag t ralts = some ra ∧ ∀ d tail k, rden T tail (domOf d x) = some k →
        readAtom k ra = .ok (some (normVal T b v))) := by
  unfold callOk at ha
  cases hw : written T a alts with
  | none => simp [hw] at ha
  | some p =>
    obtain ⟨wa, t⟩ := p
    simp only [hw] at ha
    cases hp : pickTag t ralts with
    | none => simp [hp] at ha
    | some ra =>
      simp only [hp] at ha
      obtain ⟨x, t', h1, h2, h3, h4⟩ := atom_rt T P hG hv ha hb
      unfold written at hw
      cases hps : pickS T a alts with
      | none => simp [hps] at hw
      | some wa' =>
        simp only [hps] at hw
        cases hat : atomTag T wa' with
        | none => simp [hat] at hw
        | some t'' =>
          simp only [hat, Option.some.injEq, Prod.mk.injEq] at hw
          obtain ⟨rfl, rfl⟩ := hw
          rw [hat] at h1
          simp only [Option.some.injEq] at h1
          subst h1
          refine ⟨x, wa', t'', rfl, ?_, h3, ra, hp, h4⟩
          intro miss
          simp only [writeCall, wden_val, pick_stat T hv alts wa' hps, h2]

theorem readCall_of (ralts : RAlts R) (miss : Option PyErr) {k : RDen C R} {ra : RAtom R}
    {v : Val C} {t : String} (ht : k.tag = t) (hp : pickTag t ralts = some ra)
    (hr : readAtom k ra = .ok (some v)) : readCall ralts miss k = .ok [some v] := by
  simp [readCall, ht, hp, hr]

/-- The values of a list. -/
theorem list_rt (T : Tables C W R) (P : List (Pair C W R)) {f : Field C} {b : Bool}
    {alts : List (Test C × WAtom W)} {ralts : RAlts R} (vs : List (Val C))
    (hG : ∀ u ∈ vs, Good T P u) (hv : hasList T f.alts vs = true)
    (ha : ∀ a ∈ f.alts, callOk T P alts ralts a = true) (hb : ∀ a ∈ f.alts, numOf a b)
    (miss rmiss : Option PyErr) :
    ∃ xs : List Xml, collect (vs.map fun v => writeCall T alts miss (wden T v)) = .ok xs ∧
      (∀ x ∈ xs, (∃ a ∈ f.alts, ∃ wa, written T a alts = some (wa, xtag x)) ∧
        (pickTag (xtag x) ralts).isSome = true) ∧
      ∀ kids, Dens T xs kids → readList ralts rmiss kids = .ok (vs.map (normVal T b)) := by
  induction vs with
  | nil =>
    refine ⟨[], rfl, by simp, ?_⟩
    intro kids hk
    rw [dens_nil hk]
    rfl
  | cons v vs ih =>
    rw [hasList, Bool.and_eq_true, List.any_eq_true] at hv
    obtain ⟨⟨a, haa, hva⟩, hvs⟩ := hv
    obtain ⟨xs, h1, h2, h3⟩ := ih (fun u hu => hG u (by simp [hu])) hvs
    obtain ⟨x, wa, t, g1, g2, g3, ra, g4, g5⟩ := call_rt T P (hG v (by simp)) hva (ha a haa) (hb a haa)
    refine ⟨x :: xs, ?_, ?_, ?_⟩
    · simp only [List.map_cons, g2 miss, collect, h1, List.singleton_append]
    · intro y hy
      simp only [List.mem_cons] at hy
      rcases hy with rfl | hy
      · rw [g3]
        exact ⟨⟨a, haa, wa, g1⟩, by simp [g4]⟩
      · exact h2 y hy
    · intro kids hk
      cases hk with
      | cons d tail h hs =>
        have e1 := readCall_of ralts rmiss ((rden_tag h).trans g3) g4 (g5 _ _ _ h)
        have e2 := h3 _ hs
        unfold readList at e2 ⊢
        simp only [List.map_cons, readElem, e1, collect, e2, List.singleton_append]

theorem written_tags (T : Tables C W R) {a : STy C} {alts : List (Test C × WAtom W)} {wa : WAtom W}
    {t : String} (h : written T a alts = some (wa, t)) :
    t ∈ (alts.filterMap fun a => atomTag T a.2).eraseDups := by
  rw [List.mem_eraseDups]
  simp only [List.mem_filterMap]
  unfold written at h
  cases hp : pickS T a alts with
  | none => simp [hp] at h
  | some w =>
    simp only [hp] at h
    cases ht : atomTag T w with
    | none => simp [ht] at h
    | some t' =>
      simp only [ht, Option.some.injEq, Prod.mk.injEq] at h
      obtain ⟨rfl, rfl⟩ := h
      have : ∀ l : List (Test C × WAtom W), pickS T a l = some w → ∃ q ∈ l, q.2 = w := by
        intro l
        induction l with
        | nil => simp [pickS]
        | cons q l ih =>
          obtain ⟨t0, w0⟩ := q
          intro hq
          simp only [pickS] at hq
          split at hq
          · simp at hq; exact ⟨(t0, w0), by simp, hq⟩
          · obtain ⟨q, hq1, hq2⟩ := ih hq
            exact ⟨q, by simp [hq1], hq2⟩
          · simp at hq
      obtain ⟨q, hq1, rfl⟩ := this alts hp
      exact ⟨q, hq1, ht⟩

theorem childOf_one (k : RDen C R) {tag : String} (h : k.tag = tag) : childOf tag [k] = some k := by
  simp [childOf, h]

theorem filter_keep {p : Xml → Bool} (xs : List Xml) (h : ∀ x ∈ xs, p x = true) :
    xs.filter p = xs := List.filter_eq_self.2 h

/-- A reader statement linked to the writer statement that sees the value: the statement is
written, and what is seen of it is read back as the value. -/
theorem link_cov (T : Tables C W R) (P : List (Pair C W R)) {f : Field C} {wi : WItem C W}
    {ri : RItem R} (hl : linkOk T P f wi ri = true) (hfl : floatsOk f = true)
    {ds : List (String × WDen C W)} {v : Val C} (hd : dictGet ds wi.field = some (wden T v))
    (hv : hasField T f v = true) (hG : GoodF T P v) {a : STy C} (ha : a ∈ f.alts)
    (hva : f.shape = .one → hasS T v a = true) (hc : covers T a wi ri = true) :
    ∃ ks, writeItem T ds wi = .ok ks ∧ (∀ x ∈ ks, xtag x ∈ itemTags T wi) ∧
      (∀ g fld alts miss, wi = .one g fld none alts miss →
        ∀ x ∈ ks, ∃ wa, written T a alts = some (wa, xtag x)) ∧
      ∀ as tx kids, Dens T (ks.filter fun x => !blind ri (xtag x)) kids →
        readItem as tx kids ri =
          .ok [(f.param, some (f.cut (normVal T (f.alts.contains .numFloat) v)))] := by
  have hb : ∀ a ∈ f.alts, numOf a (f.alts.contains .numFloat) := fun a ha => numOf_field hfl ha
  generalize f.alts.contains .numFloat = b at hb
  unfold linkOk at hl
  simp only [Bool.and_eq_true, decide_eq_true_eq] at hl
  obtain ⟨hkey, hl⟩ := hl
  split at hl
  · -- plain child
    rename_i g fld alts miss tag key ralts rmiss ck hsh
    rw [cut_of hsh (by simp)]
    simp only [Bool.and_eq_true, List.all_eq_true] at hl
    obtain ⟨hg, hl⟩ := hl
    have hva := hva hsh
    have h := hl a ha
    simp only [covers, tagIs] at hc
    cases hw : written T a alts with
    | none => simp [hw] at hc
    | some p =>
      obtain ⟨wa, t⟩ := p
      simp only [hw, decide_eq_true_eq] at hc h
      subst hc
      simp at h
      obtain ⟨x, wa', t', g1, g2, g3, ra, g4, g5⟩ := call_rt T P hG.1 hva h (hb a ha)
      rw [hw] at g1
      simp only [Option.some.injEq, Prod.mk.injEq] at g1
      obtain ⟨rfl, rfl⟩ := g1
      refine ⟨[x], ?_, ?_, ?_, ?_⟩
      · simp only [WItem.field] at hd
        simp only [writeItem, hd, wden_val, guard_holds hg hv, if_true, wrapped, g2]
      · simp only [List.mem_singleton, forall_eq, itemTags, g3]
        exact written_tags T hw
      · intro g' fld' alts' miss' he y hy
        cases he
        simp only [List.mem_singleton] at hy
        subst hy
        exact ⟨wa, by rw [hw, g3]⟩
      · intro as tx kids hk
        rw [filter_keep [x] (by simp [blind, g3])] at hk
        obtain ⟨k, d, tail, rfl, hr⟩ := dens_one hk
        have ht := (rden_tag hr).trans g3
        simp only [readItem, childOf_one k ht, Inner.get]
        rw [readCall_of ralts rmiss ht g4 (g5 _ _ _ hr)]
        simp only [RItem.key] at hkey
        simp [hkey]
  · -- child inside a wrapper, first
    rename_i g fld w alts miss tag key ralts rmiss ck hsh
    rw [cut_of hsh (by simp)]
    simp only [Bool.and_eq_true, List.all_eq_true, decide_eq_true_eq] at hl
    obtain ⟨⟨hg, rfl⟩, hl⟩ := hl
    have hva := hva hsh
    obtain ⟨x, wa, t, g1, g2, g3, ra, g4, g5⟩ := call_rt T P hG.1 hva (hl a ha) (hb a ha)
    refine ⟨[.node w [] [x]], ?_, ?_, ?_, ?_⟩
    · simp only [WItem.field] at hd
      simp only [writeItem, hd, wden_val, guard_holds hg hv, if_true, wrapped, g2]
    · simp [itemTags, xtag]
    · intro g' fld' alts' miss' he
      cases he
    · intro as tx kids hk
      rw [filter_keep _ (by simp [blind, xtag])] at hk
      obtain ⟨k, d, tail, rfl, hr⟩ := dens_one hk
      obtain ⟨k1, k2, k3⟩ := rden_node hr
      obtain ⟨k', d', tail', hk', hk''⟩ := dens_one k3
      simp only [readItem, childOf_one k k1, Inner.get, hk', List.head?_cons]
      rw [readCall_of ralts rmiss ((rden_tag hk'').trans g3) g4 (g5 _ _ _ hk'')]
      simp only [RItem.key] at hkey
      simp [hkey]
  · -- child inside a wrapper, by tag
    rename_i g fld w alts miss tag key t0 ralts rmiss ck hsh
    rw [cut_of hsh (by simp)]
    simp only [Bool.and_eq_true, List.all_eq_true, decide_eq_true_eq] at hl
    obtain ⟨⟨hg, rfl⟩, hl⟩ := hl
    have hva := hva hsh
    obtain ⟨x, wa, t, g1, g2, g3, ra, g4, g5⟩ := call_rt T P hG.1 hva (hl a ha).2 (hb a ha)
    have htag := (hl a ha).1
    simp only [tagIs, g1, decide_eq_true_eq] at htag
    subst htag
    refine ⟨[.node w [] [x]], ?_, ?_, ?_, ?_⟩
    · simp only [WItem.field] at hd
      simp only [writeItem, hd, wden_val, guard_holds hg hv, if_true, wrapped, g2]
    · simp [itemTags, xtag]
    · intro g' fld' alts' miss' he
      cases he
    · intro as tx kids hk
      rw [filter_keep _ (by simp [blind, xtag])] at hk
      obtain ⟨k, d, tail, rfl, hr⟩ := dens_one hk
      obtain ⟨k1, k2, k3⟩ := rden_node hr
      obtain ⟨k', d', tail', hk', hk''⟩ := dens_one k3
      have ht := (rden_tag hk'').trans g3
      simp only [readItem, childOf_one k k1, Inner.get, hk', childOf_one k' ht]
      rw [readCall_of ralts rmiss ht g4 (g5 _ _ _ hk'')]
      simp only [RItem.key] at hkey
      simp [hkey]
  · -- choice
    rename_i g fld alts miss key ralts req hsh
    rw [cut_of hsh (by simp)]
    simp only [Bool.and_eq_true, List.all_eq_true, decide_eq_true_eq] at hl
    obtain ⟨⟨hg, hnd⟩, hl⟩ := hl
    have hva := hva hsh
    obtain ⟨x, wa, t, g1, g2, g3, ra, g4, g5⟩ := call_rt T P hG.1 hva (hl a ha) (hb a ha)
    have hpick : ∀ l : List (String × RAtom R), (l.map (·.1)).Nodup →
        pickTag t (l.map fun p => (some p.1, p.2)) = some ra →
        (∃ q ∈ l, q.1 = t) ∧ ∀ k : RDen C R, k.tag = t →
          l.filterMap (fun a => (childOf a.1 [k]).map (fun k => (k, a.2))) = [(k, ra)] := by
      intro l
      induction l with
      | nil => simp [pickTag]
      | cons q l ih =>
        obtain ⟨q1, q2⟩ := q
        intro hn hp
        simp only [List.map_cons, List.nodup_cons] at hn
        by_cases hq : q1 = t
        · subst hq
          simp [pickTag] at hp
          subst hp
          refine ⟨⟨(q1, q2), by simp, rfl⟩, ?_⟩
          intro k hk
          rw [List.filterMap_cons]
          simp only [childOf_one k hk, Option.map_some]
          have : l.filterMap (fun a => (childOf a.1 [k]).map (fun k => (k, a.2))) = [] := by
            rw [List.filterMap_eq_nil_iff]
            intro q' hq'
            have : q'.1 ≠ k.tag := by
              intro he
              apply hn.1
              rw [← hk, ← he]
              exact List.mem_map_of_mem hq'
            simp [childOf, Ne.symm this]
          rw [this]
        · simp [pickTag, hq] at hp
          obtain ⟨⟨q', h1, h2⟩, h3⟩ := ih hn.2 (by simpa using hp)
          refine ⟨⟨q', by simp [h1], h2⟩, ?_⟩
          intro k hk
          rw [List.filterMap_cons]
          have : childOf q1 [k] = none := by
            simp [childOf, hk, Ne.symm hq]
          simp only [this, Option.map_none]
          exact h3 k hk
    obtain ⟨⟨q, hq1, hq2⟩, hch⟩ := hpick ralts hnd g4
    refine ⟨[x], ?_, ?_, ?_, ?_⟩
    · simp only [WItem.field] at hd
      simp only [writeItem, hd, wden_val, guard_holds hg hv, if_true, wrapped, g2]
    · simp only [List.mem_singleton, forall_eq, itemTags, g3]
      exact written_tags T g1
    · intro g' fld' alts' miss' he y hy
      cases he
      simp only [List.mem_singleton] at hy
      subst hy
      exact ⟨wa, by rw [g1, g3]⟩
    · intro as tx kids hk
      rw [filter_keep [x] (by
        simp only [List.mem_singleton, forall_eq, blind, Bool.not_eq_true', List.all_eq_false]
        exact ⟨q, hq1, by simp [g3, hq2]⟩)] at hk
      obtain ⟨k, d, tail, rfl, hr⟩ := dens_one hk
      simp only [readItem, hch k ((rden_tag hr).trans g3), g5 _ _ _ hr]
      simp only [RItem.key] at hkey
      simp [hkey]
  · -- required child
    rename_i g fld alts miss tag key hsh
    rw [cut_of hsh (by simp)]
    simp only [Bool.and_eq_true, List.all_eq_true, decide_eq_true_eq] at hl
    obtain ⟨hg, hl⟩ := hl
    have hva := hva hsh
    obtain ⟨x, wa, t, g1, g2, g3, ra, g4, g5⟩ := call_rt T P hG.1 hva (hl a ha).2 (hb a ha)
    have htag := (hl a ha).1
    simp only [tagIs, g1, decide_eq_true_eq] at htag
    subst htag
    refine ⟨[x], ?_, ?_, ?_, ?_⟩
    · simp only [WItem.field] at hd
      simp only [writeItem, hd, wden_val, guard_holds hg hv, if_true, wrapped, g2]
    · simp only [List.mem_singleton, forall_eq, itemTags, g3]
      exact written_tags T g1
    · intro g' fld' alts' miss' he y hy
      cases he
      simp only [List.mem_singleton] at hy
      subst hy
      exact ⟨wa, by rw [g1, g3]⟩
    · intro as tx kids hk
      rw [filter_keep [x] (by simp [blind, g3])] at hk
      obtain ⟨k, d, tail, rfl, hr⟩ := dens_one hk
      have ht := (rden_tag hr).trans g3
      simp [pickTag] at g4
      subst g4
      have := g5 _ _ _ hr
      simp only [readAtom, Conv.run, Except.ok.injEq] at this
      simp only [readItem, childOf_one k ht, this]
      simp only [RItem.key] at hkey
      simp [hkey]
  · -- list in a wrapper
    rename_i max g fld w alts miss tag key ralts rmiss rmax hsh
    rw [cut_of hsh (by simp)]
    simp only [Bool.and_eq_true, List.all_eq_true, decide_eq_true_eq] at hl
    obtain ⟨⟨⟨⟨hg, hga⟩, rfl⟩, hl⟩, hmax⟩ := hl
    have hv' := hv
    unfold hasField at hv'
    rw [hsh] at hv'
    cases v <;> simp at hv'
    rename_i vs
    obtain ⟨⟨hne, hm⟩, hlist⟩ := hv'
    obtain ⟨xs, h1, h2, h3⟩ := list_rt T P (f := f) vs (hG.2 vs rfl) hlist hl hb miss rmiss
    refine ⟨[.node w [] xs], ?_, ?_, ?_, ?_⟩
    · simp only [WItem.field] at hd
      simp only [writeItem, hd, wden_val, guard_holds hg hv, if_true, wden_elems, List.map_map]
      have : (writeCall T alts miss ∘ wden T) = fun v => writeCall T alts miss (wden T v) := rfl
      rw [this, h1]
      rfl
    · simp [itemTags, xtag]
    · intro g' fld' alts' miss' he
      cases he
    · intro as tx kids hk
      rw [filter_keep _ (by simp [blind, xtag])] at hk
      obtain ⟨k, d, tail, rfl, hr⟩ := dens_one hk
      obtain ⟨k1, k2, k3⟩ := rden_node hr
      simp only [readItem, childOf_one k k1, h3 _ k3]
      simp only [RItem.key] at hkey
      cases rmax with
      | none => simp [hkey, normVal, normList_map]
      | some n =>
        cases max with
        | none => simp at hmax
        | some m =>
          simp at hmax
          simp [maxOk] at hm
          have : ¬ (vs.length > n) := by omega
          simp only [List.length_map, this, if_false]
          simp [hkey, normVal, normList_map]
  · -- list without wrapper
    rename_i max g fld alts miss key ralts rmiss hsh
    rw [cut_of hsh (by simp)]
    simp only [Bool.and_eq_true, List.all_eq_true, decide_eq_true_eq] at hl
    obtain ⟨hg, hl⟩ := hl
    have hv' := hv
    unfold hasField at hv'
    rw [hsh] at hv'
    cases v <;> simp at hv'
    rename_i vs
    obtain ⟨⟨hne, hm⟩, hlist⟩ := hv'
    obtain ⟨xs, h1, h2, h3⟩ := list_rt T P (f := f) vs (hG.2 vs rfl) hlist hl hb miss rmiss
    refine ⟨xs, ?_, ?_, ?_, ?_⟩
    · simp only [WItem.field] at hd
      simp only [writeItem, hd, wden_val, guard_holds hg hv, if_true, wden_elems, List.map_map]
      have : (writeCall T alts miss ∘ wden T) = fun v => writeCall T alts miss (wden T v) := rfl
      rw [this, h1]
      rfl
    · intro x hx
      obtain ⟨⟨a', ha', wa, hwa⟩, -⟩ := h2 x hx
      exact written_tags T hwa
    · intro g' fld' alts' miss' he
      cases he
    · intro as tx kids hk
      rw [filter_keep _ (by
        intro x hx
        have := (h2 x hx).2
        simp [blind, this])] at hk
      simp only [readItem, h3 _ hk]
      simp only [RItem.key] at hkey
      simp [hkey, normVal, normList_map]
  · -- a wrapper for each value, the first one is read
    rename_i fld w alts miss tag key ralts rmiss rmax hsh
    simp only [Bool.and_eq_true, List.all_eq_true, decide_eq_true_eq, Bool.or_eq_true] at hl
    obtain ⟨⟨rfl, hl⟩, hmax⟩ := hl
    have hv' := hv
    unfold hasField at hv'
    rw [hsh] at hv'
    cases v <;> simp at hv'
    rename_i vs
    obtain ⟨hne, hlist⟩ := hv'
    rw [hasList_iff] at hlist
    have hrest : ∀ us : List (Val C), (∀ u ∈ us, u ∈ vs) → ∃ xs : List Xml,
        collect (us.map fun u => wrapped (some w) (writeCall T alts miss (wden T u))) = .ok xs ∧
          ∀ x ∈ xs, xtag x = w := by
      intro us
      induction us with
      | nil => intro _; exact ⟨[], rfl, by simp⟩
      | cons u us ih =>
        intro hm
        obtain ⟨xs, i1, i2⟩ := ih (fun u' hu' => hm u' (by simp [hu']))
        obtain ⟨a', ha', hua⟩ := hlist u (hm u (by simp))
        obtain ⟨x, wa, t, g1, g2, g3, -⟩ :=
          call_rt T P (hG.2 vs rfl u (hm u (by simp))) hua (hl a' ha') (hb a' ha')
        refine ⟨.node w [] [x] :: xs, ?_, ?_⟩
        · have hw : wrapped (some w) (writeCall T alts miss (wden T u)) = .ok [.node w [] [x]] := by
            simp only [g2, wrapped]
          simp only [List.map_cons, collect, hw, i1, List.singleton_append]
        · intro y hy
          simp only [List.mem_cons] at hy
          rcases hy with rfl | hy
          · rfl
          · exact i2 y hy
    cases vs with
    | nil => simp at hne
    | cons u us =>
      obtain ⟨xs, i1, i2⟩ := hrest us (fun u' hu' => by simp [hu'])
      obtain ⟨a', ha', hua⟩ := hlist u (by simp)
      obtain ⟨x, wa, t, g1, g2, g3, ra, g4, g5⟩ :=
        call_rt T P (hG.2 (u :: us) rfl u (by simp)) hua (hl a' ha') (hb a' ha')
      refine ⟨.node w [] [x] :: xs, ?_, ?_, ?_, ?_⟩
      · simp only [WItem.field] at hd
        simp only [writeItem, hd, wden_val, wden_elems, List.map_map, Function.comp_def]
        have hw : wrapped (some w) (writeCall T alts miss (wden T u)) = .ok [.node w [] [x]] := by
          simp only [g2, wrapped]
        simp only [List.map_cons, collect, hw, i1, List.singleton_append]
      · intro y hy
        simp only [List.mem_cons] at hy
        rcases hy with rfl | hy
        · simp [itemTags, xtag]
        · simp [itemTags, i2 y hy]
      · intro g' fld' alts' miss' he
        cases he
      · intro as tx kids hk
        rw [List.filter_cons, if_pos (by simp [blind, xtag])] at hk
        cases hk with
        | cons d tail hr hs =>
        rename_i k ks
        obtain ⟨k1, k2, k3⟩ := rden_node hr
        obtain ⟨k', d', tail', hk', hk''⟩ := dens_one k3
        have hrl : readList ralts rmiss k.kids = .ok [normVal T b u] := by
          rw [hk']
          simp only [readList, List.map_cons, List.map_nil, readElem,
            readCall_of ralts rmiss ((rden_tag hk'').trans g3) g4 (g5 _ _ _ hk''), collect,
            List.append_nil]
        have hch : childOf w (k :: ks) = some k := by simp [childOf, k1]
        simp only [readItem, hch, hrl]
        simp only [RItem.key] at hkey
        rcases hmax with rfl | rfl
        · simp [hkey, normVal, normList, Field.cut, hsh]
        · simp [hkey, normVal, normList, Field.cut, hsh]
  · simp at hl

/-- A linked reader statement that does not see the value reads nothing. -/
theorem link_not (T : Tables C W R) (P : List (Pair C W R)) {f : Field C} {wi : WItem C W}
    {ri : RItem R} {a : STy C} (hc : covers T a wi ri = false) {ks : List Xml}
    (hks : ∀ g fld alts miss, wi = .one g fld none alts miss →
        ∀ x ∈ ks, ∃ wa, written T a alts = some (wa, xtag x))
    (as : List (String × String)) (tx : Option String) (kids : List (RDen C R))
    (hk : Dens T (ks.filter fun x => !blind ri (xtag x)) kids) :
    readItem as tx kids ri = .ok [] := by
  unfold covers at hc
  split at hc
  · rename_i g fld alts miss tag key ralts rmiss ck
    have : (ks.filter fun x => !blind (.one tag key .self ralts rmiss ck : RItem R) (xtag x)) = [] := by
      rw [List.filter_eq_nil_iff]
      intro x hx
      obtain ⟨wa, hwa⟩ := hks g fld alts miss rfl x hx
      simp only [tagIs, hwa, decide_eq_false_iff_not] at hc
      simp [blind, hc]
    rw [this] at hk
    rw [dens_nil hk]
    simp [readItem, childOf]
  · simp at hc

end Verif.Codec
