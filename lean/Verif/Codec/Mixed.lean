import Verif.Codec.Roundtrip
import Verif.Codec.DocSpec
/-
Texts with inline elements in any order: what comes back.
-/
set_option linter.unusedSimpArgs false
set_option linter.unusedSectionVars false
namespace Verif.Codec
open Verif.Py Verif.Enums Verif.Num Verif.Xml Verif.Xml.Spec Verif.Codec.Spec

/-! ### Pieces of text -/

/-- The text before the first inline element. -/
def leadP : List Part → String
  | .text s :: ps => s ++ leadP ps
  | _ => ""

/-- `none` for the empty text. -/
def orNone (s : String) : Option String := if s = "" then none else some s

theorem lead_merge (ps : List Part) : leadText (domParts (mergeParts ps)) = orNone (leadP ps) := by
  induction ps with
  | nil => rfl
  | cons p ps ih =>
    cases p with
    | elem tag as t => rfl
    | text s =>
      rw [mergeParts, leadP]
      by_cases hs : s = ""
      · subst hs
        simp [ih]
      · rw [if_neg hs]
        split
        · rename_i t qs hq
          rw [hq] at ih
          simp only [domParts, leadText, orNone] at ih ⊢
          by_cases ht : t = ""
          · subst ht
            simp only [if_true] at ih
            split at ih
            · rename_i h0
              simp [h0]
            · simp at ih
          · rw [if_neg ht] at ih
            split at ih
            · simp at ih
            · simp only [Option.some.injEq] at ih
              rw [ih]
        · rename_i hq
          have : leadText (domParts (mergeParts ps)) = none := by
            cases hm : mergeParts ps with
            | nil => rfl
            | cons q qs =>
              cases q with
              | text t => exact absurd hm (hq t qs)
              | elem _ _ _ => rfl
          rw [this] at ih
          have h0 : leadP ps = "" := by
            unfold orNone at ih
            split at ih
            · assumption
            · simp at ih
          simp [domParts, leadText, orNone, h0]

/-- The inline elements as the reader sees them. -/
def kidsP : List Part → List (RDen Cls RM)
  | [] => []
  | .text _ :: ps => kidsP ps
  | .elem tag as t :: ps =>
    (rden tables (orNone (leadP ps)) (domOf 0 (.leaf tag as t))).toList ++ kidsP ps

theorem kids_text (s : String) (ds : List Dom) :
    rdenKids tables (.text s :: ds) = rdenKids tables ds := rfl

theorem kids_merge (ps : List Part) : rdenKids tables (domParts (mergeParts ps)) = kidsP ps := by
  induction ps with
  | nil => rfl
  | cons p ps ih =>
    cases p with
    | elem tag as t =>
      rw [mergeParts, domParts, kidsP, rdenKids, lead_merge, ih]
      · rw [← domOf]
        cases rden tables (orNone (leadP ps)) (domOf 0 (.leaf tag as t)) <;> rfl
      · rintro s ⟨⟩
    | text s =>
      rw [mergeParts, kidsP, ← ih]
      by_cases hs : s = ""
      · rw [if_pos hs]
      · rw [if_neg hs]
        split
        · rename_i t qs hq
          rw [hq, domParts, domParts, kids_text, kids_text]
        · rw [domParts, kids_text]

/-! ### Inline elements -/

/-- Objects of class `c` are written by one of the branches as an inline element that is read back
(`true`) or refused (`false`). -/
def inlineOk (alts : List (Test Cls × WAtom WM)) (tags : List (String × RM)) (skipped : List String)
    (known : Bool) (c : Cls) : Bool :=
  (lossy c).isEmpty && (covered c).all (fun f => f.shape = .one && f.alts.all fun a =>
    match a with | .str | .enum _ => true | _ => false) &&
  match pickS tables (.cls c) alts with
  | some (.meth m arg) =>
    match tables.wm m arg with
    | .leaf _ tag _ _ _ =>
      match dictGet tags tag with
      | some r => known && pairs.contains ⟨c, m, arg, r⟩
      | none => !known && decide (tag ∉ skipped) && pairs.any fun p => p.c = c && p.w = m && p.arg = arg
    | _ => false
  | _ => false

theorem norm_plain {c : Cls} (hl : (lossy c).isEmpty = true)
    (hs : (covered c).all (fun f => f.shape = .one && f.alts.all fun a =>
      match a with | .str | .enum _ => true | _ => false) = true)
    {v : Val Cls} (h : hasS tables v (.cls c) = true) (b : Bool) : normVal tables b v = v := by
  cases v <;> simp [hasS] at h
  rename_i c' fs
  obtain ⟨⟨rfl, -⟩, hf⟩ := h
  simp only [List.all_eq_true] at hs
  simp only [normVal, Val.obj.injEq, true_and]
  have hl' : tables.lost c' = [] := List.isEmpty_iff.mp hl
  induction fs with
  | nil => rfl
  | cons p fs ih =>
    obtain ⟨k, u⟩ := p
    rw [hasFields_cons, Bool.and_eq_true] at hf
    rw [normFields, ih hf.2, hl', if_neg (by simp)]
    obtain ⟨f, hfo, hty⟩ : ∃ f, fieldOf (tables.schema c') k = some f ∧ hasField tables f u = true := by
      cases hfo : fieldOf (tables.schema c') k with
      | none => simp [hfo] at hf
      | some f => exact ⟨f, rfl, by simpa [hfo] using hf.1⟩
    have hff := hs f (fieldOf_mem hfo).1
    simp only [Bool.and_eq_true, decide_eq_true_eq, List.all_eq_true] at hff
    have hu : ∀ b, normVal tables b u = u := by
      intro b
      simp only [hasField, hff.1, List.any_eq_true] at hty
      obtain ⟨a, ha, hua⟩ := hty
      have := hff.2 a ha
      cases a <;> simp at this <;> cases u <;> simp [hasS] at hua <;> rfl
    rw [hu]
    congr 2
    unfold cutAt
    rw [hfo]
    exact cut_of hff.1 (by simp) u

theorem inline_rt {alts : List (Test Cls × WAtom WM)} {tags : List (String × RM)}
    {skipped : List String} {known : Bool} {c : Cls}
    (hc : inlineOk alts tags skipped known c = true) {v : Val Cls}
    (h : hasS tables v (.cls c) = true) :
    ∃ tag as t, writePart tables alts (wden tables v) = .ok [.elem tag as t] ∧
      ∀ tail, ∃ k, rden tables tail (domOf 0 (.leaf tag as t)) = some k ∧ k.tag = tag ∧
        k.tail = tail ∧
        if known then ∃ r, dictGet tags tag = some r ∧ k.read r = .ok v
        else dictGet tags tag = none ∧ tag ∉ skipped := by
  simp only [inlineOk, Bool.and_eq_true] at hc
  obtain ⟨⟨hl, hs⟩, hc⟩ := hc
  split at hc
  · rename_i m arg hpick
    split at hc
    · rename_i acc ltag A f miss hwm
      have hpk := pick_stat tables h alts _ hpick
      obtain ⟨c', fs', rfl⟩ : ∃ c' fs', v = .obj c' fs' := by
        cases v <;> simp [hasS] at h
        exact ⟨_, _, rfl⟩
      have key : ∀ r, (⟨c, m, arg, r⟩ : Pair Cls WM RM) ∈ pairs →
          ∃ as t, writePart tables alts (wden tables (.obj c' fs')) = .ok [.elem ltag as t] ∧
            ∀ tail, ∃ k, rden tables tail (domOf 0 (.leaf ltag as t)) = some k ∧ k.tag = ltag ∧
              k.tail = tail ∧ k.read r = .ok (.obj c' fs') := by
        intro r hp
        obtain ⟨x, tag, g1, g2, g3, g4, g5⟩ := all_good tables pairs tables_ok _ _ hp h
        obtain ⟨as, t, rfl⟩ := g4 _ _ _ _ _ hwm
        simp only [methTag, hwm, Option.some.injEq] at g1
        subst g1
        refine ⟨as, t, ?_, ?_⟩
        · unfold writePart
          simp only [wden_val, writeCall, hpk, writeAtom, g2]
        · intro tail
          obtain ⟨k, hk⟩ := rden_some tables tail 0 (.leaf ltag as t)
          refine ⟨k, hk, rden_tag hk, rden_tail hk, ?_⟩
          have := g5 0 tail k hk
          rwa [norm_plain hl hs h] at this
      split at hc
      · rename_i r htag
        rw [Bool.and_eq_true, List.contains_iff_mem] at hc
        obtain ⟨as, t, h1, h2⟩ := key r hc.2
        refine ⟨ltag, as, t, h1, fun tail => ?_⟩
        obtain ⟨k, k1, k2, k3, k4⟩ := h2 tail
        exact ⟨k, k1, k2, k3, by rw [if_pos hc.1]; exact ⟨r, htag, k4⟩⟩
      · rename_i htag
        simp only [Bool.and_eq_true, Bool.not_eq_true', decide_eq_true_eq, List.any_eq_true] at hc
        obtain ⟨⟨hk, hsk⟩, p, hp, ⟨e1, e2⟩, e3⟩ := hc
        have hp' : (⟨c, m, arg, p.r⟩ : Pair Cls WM RM) ∈ pairs := by
          rw [← e1, ← e2, ← e3]; exact hp
        obtain ⟨as, t, h1, h2⟩ := key p.r hp'
        refine ⟨ltag, as, t, h1, fun tail => ?_⟩
        obtain ⟨k, k1, k2, k3, k4⟩ := h2 tail
        exact ⟨k, k1, k2, k3, by rw [if_neg (by simp [hk])]; exact ⟨htag, hsk⟩⟩
    · simp at hc
  · simp at hc

/-! ### All parts -/

variable {alts : List (Test Cls × WAtom WM)} {tags : List (String × RM)} {skipped : List String}
  {known : Cls → Bool} {cs : List Cls}

theorem orNone_some {s : String} (h : s ≠ "") : orNone s = some s := if_neg h
theorem orNone_none : orNone "" = none := rfl

theorem parts_echo (hcs : ∀ c ∈ cs, inlineOk alts tags skipped (known c) c = true) :
    ∀ vs : List (Val Cls), (∀ v ∈ vs, Inline cs v) →
    ∃ ps, collect (vs.map (fun v => writePart tables alts (wden tables v))) = .ok ps ∧
      leadP ps = leading vs ∧
      ∀ lead, match echo known lead vs with
        | some us => collect ((kidsP ps).map (readPart (orNone lead) tags skipped)) = .ok us
        | none => ∃ e, collect ((kidsP ps).map (readPart (orNone lead) tags skipped)) = .error e
  | [], _ => ⟨[], rfl, rfl, fun _ => rfl⟩
  | v :: vs, h => by
    obtain ⟨ps, h1, h2, h3⟩ := parts_echo hcs vs fun u hu => h u (by simp [hu])
    rcases h v (by simp) with ⟨s, rfl, -⟩ | ⟨c, hc, hv⟩
    · refine ⟨.text s :: ps, ?_, ?_, ?_⟩
      · rw [List.map_cons, writePart, wden_val, collect, h1]
        rfl
      · rw [leadP, leading, h2]
      · intro lead
        rw [echo]
        exact h3 lead
    · obtain ⟨tag, as, t, w1, w2⟩ := inline_rt (hcs c hc) hv.1
      have hv1 := hv.1
      obtain ⟨c', fs, rfl⟩ : ∃ c' fs, v = .obj c' fs := by
        cases v <;> simp [hasS] at hv1
        exact ⟨_, _, rfl⟩
      obtain rfl : c = c' := by
        simp only [hasS, Bool.and_eq_true, decide_eq_true_eq] at hv1
        exact hv1.1.1.symm
      refine ⟨.elem tag as t :: ps, ?_, rfl, ?_⟩
      · rw [List.map_cons, w1, collect, h1]
        rfl
      · intro lead
        obtain ⟨k, k1, k2, k3, k4⟩ := w2 (orNone (leadP ps))
        have h3' := h3 lead
        rw [kidsP, k1, echo]
        simp only [Option.toList_some, List.singleton_append, List.map_cons]
        rw [h2] at k3
        cases hk : known c with
        | false =>
          rw [hk] at k4
          simp only [Bool.false_eq_true, if_false] at k4
          simp only [if_true]
          refine ⟨.parseError, ?_⟩
          unfold readPart
          simp only [k2, k4.1]
          rw [if_neg k4.2, collect]
        | true =>
          rw [hk] at k4
          simp only [if_true] at k4
          obtain ⟨r, hr, hrd⟩ := k4
          simp only [Bool.true_eq_false, if_false]
          by_cases hl : leading vs = ""
          · rw [hl, orNone_none] at k3
            rw [if_pos hl]
            have hp : readPart (orNone lead) tags skipped k = .ok [.obj c fs] := by
              unfold readPart
              simp only [k2, hr, hrd, k3]
            rw [hp]
            cases he : echo known lead vs with
            | none =>
              rw [he] at h3'
              obtain ⟨e, he'⟩ := h3'
              exact ⟨e, by rw [collect, he']⟩
            | some us =>
              rw [he] at h3'
              simp only at h3'
              simp only [Option.map_some]
              rw [collect, h3']
              rfl
          · rw [if_neg hl]
            rw [orNone_some hl] at k3
            by_cases h0 : lead = ""
            · rw [if_pos h0]
              subst h0
              refine ⟨.typeError, ?_⟩
              unfold readPart
              simp only [k2, hr, hrd, k3, orNone_none]
              rw [collect]
            · rw [if_neg h0]
              have hp : readPart (orNone lead) tags skipped k = .ok [.obj c fs, .str lead] := by
                unfold readPart
                simp only [k2, hr, hrd, k3, orNone_some h0]
              rw [hp]
              cases he : echo known lead vs with
              | none =>
                rw [he] at h3'
                obtain ⟨e, he'⟩ := h3'
                exact ⟨e, by rw [collect, he']⟩
              | some us =>
                rw [he] at h3'
                simp only at h3'
                simp only [Option.map_some]
                rw [collect, h3']
                rfl

theorem echo_mem {lead : String} : ∀ {vs us : List (Val Cls)}, echo known lead vs = some us →
    ∀ u ∈ us, (∃ s, u = .str s) ∨ ∃ c fs, u = .obj c fs ∧ u ∈ vs
  | [], us, h => by
    simp only [echo, Option.some.injEq] at h
    subst h
    simp
  | v :: vs, us, h => by
    cases v <;> simp only [echo] at h <;> try (simp at h; done)
    · intro u hu
      rcases echo_mem h u hu with h' | ⟨c, fs, e, hm⟩
      · exact Or.inl h'
      · exact Or.inr ⟨c, fs, e, by simp [hm]⟩
    · rename_i c fs
      split at h
      · simp at h
      split at h
      · rw [Option.map_eq_some_iff] at h
        obtain ⟨us', h1, rfl⟩ := h
        intro u hu
        rcases List.mem_cons.1 hu with rfl | hu
        · exact Or.inr ⟨c, fs, rfl, by simp⟩
        rcases echo_mem h1 u hu with h' | ⟨c, fs, e, hm⟩
        · exact Or.inl h'
        · exact Or.inr ⟨c, fs, e, by simp [hm]⟩
      split at h
      · simp at h
      · rw [Option.map_eq_some_iff] at h
        obtain ⟨us', h1, rfl⟩ := h
        intro u hu
        rcases List.mem_cons.1 hu with rfl | hu
        · exact Or.inr ⟨c, fs, rfl, by simp⟩
        rcases List.mem_cons.1 hu with rfl | hu
        · exact Or.inl ⟨_, rfl⟩
        rcases echo_mem h1 u hu with h' | ⟨c, fs, e, hm⟩
        · exact Or.inl h'
        · exact Or.inr ⟨c, fs, e, by simp [hm]⟩

theorem readBack_fits {palts : List (STy Cls)} (hs : .str ∈ palts) (hc : ∀ c ∈ cs, .cls c ∈ palts)
    {vs us : List (Val Cls)} (hv : ∀ v ∈ vs, Inline cs v) (h : readBack known vs = some us) :
    us.all (fun v => palts.any fun a => fitsS a v) = true := by
  have key : ∀ u, ((∃ s, u = .str s) ∨ ∃ c fs, u = .obj c fs ∧ u ∈ vs) →
      (palts.any fun a => fitsS a u) = true := by
    rintro u (⟨s, rfl⟩ | ⟨c, fs, rfl, hu⟩)
    · exact List.any_eq_true.2 ⟨_, hs, rfl⟩
    · rcases hv _ hu with ⟨s, h, -⟩ | ⟨c', hc', hw⟩
      · simp at h
      · have := hw.1
        simp only [hasS, Bool.and_eq_true, decide_eq_true_eq] at this
        obtain rfl := this.1.1
        exact List.any_eq_true.2 ⟨_, hc _ hc', by simp [fitsS]⟩
  unfold readBack at h
  rw [Option.map_eq_some_iff] at h
  obtain ⟨us', h1, rfl⟩ := h
  rw [List.all_eq_true]
  intro u hu
  split at hu
  · exact key u (echo_mem h1 u hu)
  · rcases List.mem_cons.1 hu with rfl | hu
    · exact key _ (Or.inl ⟨_, rfl⟩)
    · exact key u (echo_mem h1 u hu)

/-- Read with method `r`, the element gives the object whose parts are what comes back of `vs`. -/
def ReadsBack (known : Cls → Bool) (c : Cls) (lang : List (String × Val Cls)) (vs : List (Val Cls))
    (res : Except PyErr (Val Cls)) : Prop :=
  match readBack known vs with
  | some us => res = .ok (.obj c (lang ++ partsOf us))
  | none => ∃ e, res = .error e

theorem mixed_core {c : Cls} {w : WM} {arg fixed : Option String} {tag : String} {A : List WAttr}
    {r : RM} {rs : List (RItem RM)} {palts : List (STy Cls)}
    (hcs : ∀ c ∈ cs, inlineOk alts tags skipped (known c) c = true)
    (hw : wm w arg = .mixed c fixed A "parts" alts) (htag : tagOf fixed arg = some tag)
    (hmro : c ∈ mro c)
    (hr : rm r tag = .mixed c rs "parts" tags skipped)
    (hs : .str ∈ palts) (hc : ∀ c ∈ cs, .cls c ∈ palts)
    {lang : List (String × Val Cls)} {vs : List (Val Cls)}
    (hp : dictGet (lang ++ [("parts", .list vs)]) "parts" = some (.list vs))
    {as : List (String × String)}
    (hA : collect (A.map (writeAttr (wdenFields tables (lang ++ [("parts", .list vs)])))) = .ok as)
    (hrs : ∀ text kids, collect (rs.map (readItem as text kids)) =
      .ok (lang.map fun p => (p.1, some p.2)))
    (hb : ∀ us : List (Val Cls), us.all (fun v => palts.any fun a => fitsS a v) = true →
      build tables c ((lang.map fun p => (p.1, some p.2)) ++ [("parts", some (.list us))]) =
        .ok (.obj c (lang ++ partsOf us)))
    (hv : ∀ v ∈ vs, Inline cs v) :
    ∃ x, (wden tables (.obj c (lang ++ [("parts", .list vs)]))).write w arg = .ok [x] ∧
      xtag x = tag ∧ ∀ d tail k, rden tables tail (domOf d x) = some k →
        ReadsBack known c lang vs (k.read r) := by
  obtain ⟨ps, p1, p2, p3⟩ := parts_echo hcs vs hv
  refine ⟨.mixed tag as ps, ?_, rfl, ?_⟩
  · rw [wden_write_obj]
    unfold runWriter
    have hw' : tables.wm w arg = .mixed c fixed A "parts" alts := hw
    have hm : c ∈ tables.mro c := hmro
    simp only [hw', htag, hA, isInst_obj, decide_eq_false_iff_not, hm, not_true_eq_false, if_false,
      wdenFields_get, hp, Option.map_some, wden_elems, List.map_map]
    have : collect (vs.map (writePart tables alts ∘ wden tables)) = .ok ps := p1
    rw [this]
  · intro d tail k hk
    simp only [domOf, rden, Option.some.injEq] at hk
    subst hk
    show ReadsBack known c lang vs (runReader tables r tag as _ _)
    unfold runReader
    have hr' : tables.rm r tag = .mixed c rs "parts" tags skipped := hr
    rw [hr', lead_merge, kids_merge, p2]
    simp only [hrs]
    have hp3 := p3 (leading vs)
    unfold ReadsBack
    have hrb : readBack known vs = (echo known (leading vs) vs).map fun us =>
      if leading vs = "" then us else .str (leading vs) :: us := rfl
    cases he : echo known (leading vs) vs with
    | none =>
      rw [he] at hp3 hrb
      obtain ⟨e, he'⟩ := hp3
      rw [hrb]
      exact ⟨e, by rw [he']⟩
    | some us =>
      rw [he] at hp3 hrb
      simp only at hp3
      rw [hp3]
      have hf := readBack_fits hs hc hv hrb
      rw [hrb]
      simp only [Option.map_some] at hf ⊢
      rw [← hb _ hf]
      by_cases hl : leading vs = ""
      · rw [hl, orNone_none]; rfl
      · rw [orNone_some hl, if_neg hl]; rfl

/-- The top level: `write_str_elem` and `read_str_elem`. -/
theorem mixed_top {c : Cls} {w : WM} {arg : Option String} {r : RM} {tag : String}
    {fs : List (String × Val Cls)} {Q : Except PyErr (Val Cls) → Prop}
    (ha : argSafe arg = true) (hw : writerSwitch c = some w) (hcall : callable w arg = true)
    (hr : readerOf none tag = some r)
    (hx : ∃ x, (wden tables (.obj c fs)).write w arg = .ok [x] ∧
      xtag x = tag ∧ ∀ d tail k, rden tables tail (domOf d x) = some k →
        Q (k.read r))
    (hp : plainVal xmlAttrs (.obj c fs) = true) :
    ∃ text, writeStrElem arg (.obj c fs) = .ok text ∧
      Q (readStrElem none text) := by
  obtain ⟨x, h2, h3, h4⟩ := hx
  have hs : Safe x := (all_safe tables tables_safe _ hp).2 w arg [x] ha h2 x (by simp)
  refine ⟨render 0 x, ?_, ?_⟩
  · unfold writeStrElem writeWith
    have hwv : writerOf (.obj c fs) = some w := hw
    rw [hwv]
    simp only [hcall, if_true, h2]
    rw [Verif.Props.Xml.C17_lines, joinLines_render]
  · have hpr := parse_render x hs [] (by simp)
    simp only [List.nil_append] at hpr
    obtain ⟨k, hk⟩ := rden_some tables none 0 x
    obtain ⟨as, ds, hd⟩ : ∃ as ds, domOf 0 x = .elem (xtag x) as ds := by
      cases x <;> exact ⟨_, _, rfl⟩
    unfold readStrElem
    rw [hpr, hd]
    simp only [readTreeElem, h3, hr]
    rw [h3] at hd
    unfold readWith
    rw [← hd, hk]
    exact h4 0 none k hk

/-! ### The text classes -/

theorem lang_attrs {m : Member} (hm : m.cls = "Language") (he : enumOk m = true)
    (fs : List (String × Val Cls)) :
    ∃ as, collect ([(⟨"L", "language", true, true⟩ : WAttr)].map
        (writeAttr (wdenFields tables (("language", .enum m) :: fs)))) = .ok as ∧
      ∀ text (kids : List (RDen Cls RM)), collect ([.attr "L" "language" (.enum "Language") true].map
        (readItem as text kids : RItem RM → _)) = .ok [("language", some (Val.enum m))] := by
  obtain ⟨t, t1, -, t3⟩ := enum_text he
  refine ⟨[("L", t)], ?_, ?_⟩
  · simp only [List.map_cons, List.map_nil, writeAttr, wdenFields_get, dictGet]
    simp [Fmt.run, t1, collect]
  · intro text kids
    rw [hm] at t3
    simp [readItem, dictGet, Conv.run, t3, collect]

theorem lang_build {c : Cls} {palts : List (STy Cls)} {m : Member} (hm : m.cls = "Language")
    (hctor : Schema.ctor c = [⟨"language", "language", .one, [.enum "Language"], true⟩,
      ⟨"parts", "parts", .mixed, palts, false⟩]) (us : List (Val Cls))
    (h : us.all (fun v => palts.any fun a => fitsS a v) = true) :
    build tables c (([("language", Val.enum m)].map fun p => (p.1, some p.2)) ++
      [("parts", some (.list us))]) = .ok (.obj c ([("language", .enum m)] ++ partsOf us)) := by
  unfold build
  have : tables.ctor c = _ := hctor
  rw [this]
  have hl : fitsS (.enum "Language") (.enum m : Val Cls) = true := by simp [fitsS, hm]
  unfold buildWith partsOf
  cases us with
  | nil => simp [lastOf, dictGet, argOk, normal, fits, hl]
  | cons u us =>
    simp only [List.all_cons, Bool.and_eq_true, List.all_eq_true, List.any_eq_true] at h
    obtain ⟨⟨a, ha, hf⟩, hall⟩ := h
    simp [lastOf, dictGet, argOk, normal, fits, hl]
    exact ⟨a, ha, hf, hall⟩

/-- Texts in one language. -/
theorem lang_core {c : Cls} {w : WM} {r : RM} {tag : String} {palts : List (STy Cls)}
    (hcs : ∀ c ∈ cs, inlineOk alts tags skipped (known c) c = true)
    (hw : wm w none = .mixed c (some tag) [⟨"L", "language", true, true⟩] "parts" alts)
    (hmro : c ∈ mro c)
    (hr : rm r tag = .mixed c [.attr "L" "language" (.enum "Language") true] "parts" tags skipped)
    (hctor : Schema.ctor c = [⟨"language", "language", .one, [.enum "Language"], true⟩,
      ⟨"parts", "parts", .mixed, palts, false⟩])
    (hs : .str ∈ palts) (hc : ∀ c ∈ cs, .cls c ∈ palts)
    {m : Member} (hm : m.cls = "Language") (he : enumOk m = true) {vs : List (Val Cls)}
    (hv : ∀ v ∈ vs, Inline cs v) :
    ∃ x, (wden tables (.obj c [("language", .enum m), ("parts", .list vs)])).write w none = .ok [x] ∧
      xtag x = tag ∧ ∀ d tail k, rden tables tail (domOf d x) = some k →
        ReadsBack known c [("language", .enum m)] vs (k.read r) := by
  obtain ⟨as, a1, a2⟩ := lang_attrs hm he [("parts", .list vs)]
  exact mixed_core (lang := [("language", .enum m)]) hcs hw rfl hmro hr hs hc rfl a1 a2
    (lang_build hm hctor) hv

theorem plain_parts {vs : List (Val Cls)} (hv : ∀ v ∈ vs, Inline cs v) :
    plainList xmlAttrs vs = true := by
  induction vs with
  | nil => rfl
  | cons v vs ih =>
    rw [plainList, Bool.and_eq_true]
    refine ⟨?_, ih fun u hu => hv u (by simp [hu])⟩
    rcases hv v (by simp) with ⟨s, rfl, h⟩ | ⟨c, -, h⟩
    · exact h
    · exact h.2

/-! ### Texts in several languages -/

/-- A text in one language. -/
def langObj (c : Cls) (l : Member × List (Val Cls)) : Val Cls :=
  .obj c [("language", .enum l.1), ("parts", .list l.2)]

theorem texts_core {c : Cls} {w : WM} {r : RM} {tag : String}
    (h1 : ∀ m vs, m.cls = "Language" → enumOk m = true → (∀ v ∈ vs, Inline cs v) →
      ∃ x, (wden tables (langObj c (m, vs))).write w none = .ok [x] ∧
      xtag x = tag ∧ ∀ d tail k, rden tables tail (domOf d x) = some k →
        ReadsBack known c [("language", .enum m)] vs (k.read r)) :
    ∀ ls : List (Member × List (Val Cls)),
      (∀ l ∈ ls, l.1.cls = "Language" ∧ enumOk l.1 = true ∧ ∀ v ∈ l.2, Inline cs v) →
      ∃ xs, collect ((ls.map (langObj c)).map
          (fun v => writeCall tables [(.any, .meth w none)] none (wden tables v))) = .ok xs ∧
        ∀ ks, Dens tables xs ks → match textsBack known c ls with
          | some os => readList [(some tag, .meth r)] none ks = .ok os
          | none => ∃ e, readList [(some tag, .meth r)] none ks = .error e
  | [], _ => by
    refine ⟨[], rfl, ?_⟩
    intro ks hk
    cases hk
    rfl
  | (m, vs) :: ls, h => by
    obtain ⟨hm, he, hv⟩ := h (m, vs) (by simp)
    obtain ⟨x, x1, x2, x3⟩ := h1 m vs hm he hv
    obtain ⟨xs, y1, y2⟩ := texts_core h1 ls fun l hl => h l (by simp [hl])
    refine ⟨x :: xs, ?_, ?_⟩
    · simp only [List.map_cons]
      have : writeCall tables [(.any, .meth w none)] none (wden tables (langObj c (m, vs))) = .ok [x] := by
        simp only [writeCall, pick, Test.eval, wden_val, if_true, writeAtom, x1]
      rw [this, collect, y1]
      rfl
    · intro ks hk
      cases hk with
      | cons d tail hk hs =>
        rename_i k ks
        have hx := x3 d tail k hk
        have hy := y2 ks hs
        have htag : k.tag = tag := by rw [rden_tag hk, x2]
        unfold ReadsBack at hx
        unfold readList at hy ⊢
        have hread : ∀ res, k.read r = res →
            readElem [(some tag, .meth r)] none k = match res with
              | .ok v => .ok [v]
              | .error e => .error e := by
          intro res hres
          subst hres
          unfold readElem readCall
          simp only [pickTag, htag, or_true, if_true, readAtom]
          cases k.read r <;> rfl
        rw [textsBack]
        cases hb : readBack known vs with
        | none =>
          rw [hb] at hx
          obtain ⟨e, hx⟩ := hx
          refine ⟨e, ?_⟩
          rw [List.map_cons, hread _ hx, collect]
        | some us =>
          rw [hb] at hx
          simp only at hx
          cases ht : textsBack known c ls with
          | none =>
            rw [ht] at hy
            obtain ⟨e, hy⟩ := hy
            refine ⟨e, ?_⟩
            rw [List.map_cons, hread _ hx, collect, hy]
          | some os =>
            rw [ht] at hy
            simp only at hy
            simp only
            rw [List.map_cons, hread _ hx, collect, hy]
            rfl

theorem multi_core {c c' : Cls} {w w' : WM} {r r' : RM} {tag tag' key : String} {arg : Option String}
    {acc : Option Cls}
    (h1 : ∀ m vs, m.cls = "Language" → enumOk m = true → (∀ v ∈ vs, Inline cs v) →
      ∃ x, (wden tables (langObj c (m, vs))).write w none = .ok [x] ∧
      xtag x = tag ∧ ∀ d tail k, rden tables tail (domOf d x) = some k →
        ReadsBack known c [("language", .enum m)] vs (k.read r))
    (hw : wm w' arg = .node acc none [] false
      [.many .always "elements" none [(.any, .meth w none)] none])
    (harg : arg = some tag') (hacc : ∀ a, acc = some a → a ∈ mro c')
    (hr : rm r' tag' = .node c' [.flat key [(some tag, .meth r)] none])
    (hctor : Schema.ctor c' = [⟨key, "elements", .many none, [.cls c], false⟩])
    {ls : List (Member × List (Val Cls))}
    (hl : ∀ l ∈ ls, l.1.cls = "Language" ∧ enumOk l.1 = true ∧ ∀ v ∈ l.2, Inline cs v) :
    ∃ x, (wden tables (.obj c' [("elements", .list (ls.map (langObj c)))])).write w' arg = .ok [x] ∧
      xtag x = tag' ∧ ∀ d tail k, rden tables tail (domOf d x) = some k →
        match textsBack known c ls with
        | some os => k.read r' = .ok (.obj c' (if os = [] then [] else [("elements", .list os)]))
        | none => ∃ e, k.read r' = .error e := by
  obtain ⟨xs, x1, x2⟩ := texts_core h1 ls hl
  subst harg
  refine ⟨.node tag' [] xs, ?_, rfl, ?_⟩
  · rw [wden_write_obj]
    unfold runWriter
    have hw' : tables.wm w' (some tag') = _ := hw
    rw [hw']
    have : writeItem tables (wdenFields tables [("elements", .list (ls.map (langObj c)))])
        (.many .always "elements" none [(.any, .meth w none)] none) = .ok xs := by
      simp only [writeItem, wdenFields_get, dictGet, if_true, Option.map_some, wden_val, wden_elems,
        Guard.holds, wrapped]
      rw [← x1, List.map_map]
      simp [Function.comp_def]
    cases acc with
    | none =>
      simp only [Bool.true_eq_false, if_false, tagOf, List.map_nil, collect, List.map_cons,
        Bool.false_and, Bool.false_eq_true, this, List.append_nil]
    | some a =>
      have ha : a ∈ tables.mro c' := hacc a rfl
      simp only [isInst_obj, ha, decide_true, Bool.true_eq_false, if_false, tagOf, List.map_nil,
        collect, List.map_cons, Bool.false_and, Bool.false_eq_true, this, List.append_nil]
  · intro d tail k hk
    obtain ⟨k1, k2, k3⟩ := rden_node hk
    rw [rden_read hk, k1]
    unfold runReader
    have hr' : tables.rm r' tag' = _ := hr
    rw [hr']
    have hx := x2 _ k3
    simp only [List.map_cons, List.map_nil, readItem]
    cases ht : textsBack known c ls with
    | none =>
      rw [ht] at hx
      obtain ⟨e, hx⟩ := hx
      rw [hx]
      exact ⟨e, rfl⟩
    | some os =>
      rw [ht] at hx
      simp only at hx
      rw [hx]
      simp only [collect, List.append_nil]
      unfold build
      have : tables.ctor c' = _ := hctor
      rw [this]
      have hos : ∀ o ∈ os, fitsS (.cls c) o = true := by
        clear hl x1 x2 hx
        induction ls generalizing os with
        | nil =>
          simp only [textsBack, Option.some.injEq] at ht
          simp [← ht]
        | cons l ls ih =>
          rw [textsBack] at ht
          split at ht
          · rename_i us os' h2 h3
            simp only [Option.some.injEq] at ht
            subst ht
            intro o ho
            rcases List.mem_cons.1 ho with rfl | ho
            · simp [fitsS]
            · exact ih _ h3 o ho
          · simp at ht
      unfold buildWith
      cases os with
      | nil => simp [lastOf, dictGet, argOk, normal, fits]
      | cons o os => 
        simp [lastOf, dictGet, argOk, normal, fits]
        exact ⟨hos o (by simp), fun x hx => hos x (by simp [hx])⟩

/-! ### Classes -/

theorem long_name {m : Member} (hm : Lang m) {vs : List (Val Cls)}
    (hv : ∀ v ∈ vs, Inline (inlineOf .LanguageLongName) v) :
    ∃ x, (wden tables (langObj .LanguageLongName (m, vs))).write .language_long_name none = .ok [x] ∧
      xtag x = "L-4" ∧ ∀ d tail k, rden tables tail (domOf d x) = some k →
        ReadsBack term .LanguageLongName [("language", .enum m)] vs (k.read .language_long_name) := by
  refine lang_core ?_ rfl ?_ rfl rfl ?_ ?_ hm.1 hm.2 hv <;> decide +kernel

theorem overview {m : Member} (hm : Lang m) {vs : List (Val Cls)}
    (hv : ∀ v ∈ vs, Inline (inlineOf .LanguageOverviewParagraph) v) :
    ∃ x, (wden tables (langObj .LanguageOverviewParagraph (m, vs))).write
        .language_overview_paragraph none = .ok [x] ∧
      xtag x = "L-2" ∧ ∀ d tail k, rden tables tail (domOf d x) = some k →
        ReadsBack term .LanguageOverviewParagraph [("language", .enum m)] vs
          (k.read .language_overview_paragraph) := by
  refine lang_core ?_ rfl ?_ rfl rfl ?_ ?_ hm.1 hm.2 hv <;> decide +kernel

theorem paragraph {m : Member} (hm : Lang m) {vs : List (Val Cls)}
    (hv : ∀ v ∈ vs, Inline (inlineOf .LanguageParagraph) v) :
    ∃ x, (wden tables (langObj .LanguageParagraph (m, vs))).write .language_paragraph none =
        .ok [x] ∧
      xtag x = "L-1" ∧ ∀ d tail k, rden tables tail (domOf d x) = some k →
        ReadsBack term .LanguageParagraph [("language", .enum m)] vs (k.read .language_paragraph) := by
  refine lang_core ?_ rfl ?_ rfl rfl ?_ ?_ hm.1 hm.2 hv <;> decide +kernel

theorem verbatim {m : Member} (hm : Lang m) {vs : List (Val Cls)}
    (hv : ∀ v ∈ vs, Inline (inlineOf .LanguageVerbatim) v) :
    ∃ x, (wden tables (langObj .LanguageVerbatim (m, vs))).write .language_verbatim none =
        .ok [x] ∧
      xtag x = "L-5" ∧ ∀ d tail k, rden tables tail (domOf d x) = some k →
        ReadsBack term .LanguageVerbatim [("language", .enum m)] vs (k.read .language_verbatim) := by
  refine lang_core ?_ rfl ?_ rfl rfl ?_ ?_ hm.1 hm.2 hv <;> decide +kernel

theorem plain_lang {c : Cls} {m : Member} {vs : List (Val Cls)} {cs : List Cls}
    (hv : ∀ v ∈ vs, Inline cs v) : plainVal xmlAttrs (langObj c (m, vs)) = true := by
  simp [langObj, plainVal, plainFields, plain_parts hv]

theorem unit_names {vs : List (Val Cls)}
    (hv : ∀ v ∈ vs, Inline (inlineOf .SingleLanguageUnitNames) v) :
    ∃ x, (wden tables (.obj .SingleLanguageUnitNames [("parts", .list vs)])).write
        .single_language_unit_names (some "DISPLAY-NAME") = .ok [x] ∧
      xtag x = "DISPLAY-NAME" ∧ ∀ d tail k, rden tables tail (domOf d x) = some k →
        ReadsBack script .SingleLanguageUnitNames [] vs (k.read .single_language_unit_names) := by
  refine mixed_core (lang := []) (palts := [.str, .cls .Subscript, .cls .Superscript]) ?_ rfl rfl ?_
    rfl ?_ ?_ rfl rfl (fun _ _ => rfl) ?_ hv
  · decide +kernel
  · decide +kernel
  · decide +kernel
  · decide +kernel
  · intro us h
    unfold build
    have : tables.ctor .SingleLanguageUnitNames =
      [⟨"parts", "parts", .mixed, [.str, .cls .Subscript, .cls .Superscript], false⟩] := rfl
    rw [this]
    unfold buildWith partsOf
    cases us with
    | nil => simp [lastOf, dictGet, argOk, normal, fits]
    | cons u us =>
      have hf : fits (⟨"parts", "parts", .mixed, [.str, .cls .Subscript, .cls .Superscript], false⟩ :
          Field Cls) (.list (u :: us)) = true := by
        show (true && _) = true
        rw [Bool.true_and]
        exact h
      simp [lastOf, dictGet, argOk, normal, hf]

end Verif.Codec
