import Verif.Codec.Admin
import Verif.Codec.Map
import Verif.Codec.NotationSpec
import Verif.Num.Notation
/-
Notations of whole numbers in elements (C53).
-/
set_option linter.unusedSimpArgs false
namespace Verif.Codec.Notation
open Verif.Py Verif.Num Verif.Xml Verif.Xml.Spec Verif.Codec Verif.Codec.Spec Verif.Codec.Map
open Verif.Codec.Reject Verif.Num.Notation

/-! ### Numbers that were read -/

theorem number_right {nt : Notation} {s : String} {n : Int} {x : PyNum}
    (hd : Denotes nt s.toList n) (hnt : nt ≠ .octal) (h : IsNumber s x) : IsWhole x n := by
  cases nt with
  | octal => exact absurd rfl hnt
  | decimal =>
    obtain ⟨h1, h2, h3⟩ := decimal_all hd
    cases x with
    | int i =>
      rcases h with h | h
      · rw [h1] at h; cases h; exact .inl rfl
      · rw [h2] at h; cases h; exact .inl rfl
    | float f =>
      rcases h with h | ⟨i, hi, rfl⟩
      · rw [h3] at h; cases h; exact .inr rfl
      · rw [h1] at hi; cases hi; exact .inr rfl
  | hexadecimal =>
    obtain ⟨h1, h2, h3, -⟩ := radix_all hd (.inl rfl)
    cases x with
    | int i =>
      rcases h with h | h
      · rw [h1] at h; cases h
      · rw [h2] at h; cases h; exact .inl rfl
    | float f =>
      rcases h with h | ⟨i, hi, rfl⟩
      · rw [h3] at h; cases h
      · rw [h1] at hi; cases hi
  | binary =>
    obtain ⟨h1, h2, h3, -⟩ := radix_all hd (.inr rfl)
    cases x with
    | int i =>
      rcases h with h | h
      · rw [h1] at h; cases h
      · rw [h2] at h; cases h; exact .inl rfl
    | float f =>
      rcases h with h | ⟨i, hi, rfl⟩
      · rw [h3] at h; cases h
      · rw [h1] at hi; cases hi

theorem number_octal {s : String} {n : Int} {x : PyNum} (hd : Denotes .octal s.toList n)
    (h : IsNumber s x) : ∃ k : Nat, Numeral 10 s.toList k ∧ (n < 8 ↔ (k : Int) = n) ∧
      IsWhole x k := by
  obtain ⟨k, h0, -, h1, h2, h3, h4⟩ := octal_all hd
  refine ⟨k, h0, h1, ?_⟩
  cases x with
  | int i =>
    rcases h with h | h
    · rw [h2] at h; cases h; exact .inl rfl
    · rw [h3] at h
      split at h
      · rename_i hk; cases h; subst hk; exact .inl rfl
      · cases h
  | float f =>
    rcases h with h | ⟨i, hi, rfl⟩
    · rw [h4] at h; cases h; exact .inr rfl
    · rw [h2] at hi; cases hi; exact .inr rfl

theorem says_number {t : String} {as : Attrs} {xs : List Dom} {s : String} {v : Val Cls} {x : PyNum}
    (h : Says (.elem t as xs) v) (hl : leadText xs = some s) (hx : numberIn v = some x) :
    IsNumber s x := by
  cases h with
  | text hl' ht =>
    rw [hl] at hl'
    cases hl'
    cases v with
    | num y => cases hx; exact ht
    | numval y => cases hx; exact ht
    | limit y m => exact ht.elim
    | _ => cases hx
  | limit hl' hn _ _ =>
    rw [hl] at hl'
    cases hl'
    cases hx
    exact hn
  | ref _ _ _ => cases hx
  | obj _ _ => cases hx

/-! ### Types of attributes -/

theorem build_fits {c : Cls} {data : Data Cls} {v : Val Cls} (h : build tables c data = .ok v) :
    ∃ fs, v = .obj c fs ∧ ∀ a w, (a, w) ∈ fs → ∃ f ∈ Schema.ctor c, f.attr = a ∧
      fits f w = true := by
  unfold build buildWith at h
  split at h
  · cases h
  split at h
  · cases h
  split at h
  · cases h
  rename_i hall
  cases h
  refine ⟨_, rfl, ?_⟩
  intro a w hw
  obtain ⟨f, hf, hm⟩ := List.mem_filterMap.1 hw
  obtain ⟨w', hw', he⟩ := Option.map_eq_some_iff.1 hm
  cases he
  refine ⟨f, hf, rfl, ?_⟩
  have hall : (tables.ctor c).all (argOk data) = true := by simpa using hall
  have := List.all_eq_true.1 hall f hf
  unfold argOk at this
  rw [hw'] at this
  exact this

theorem read_fits {m : RM} {t : String} {as : Attrs} {ds : List Dom} {c : Cls}
    {fs : List (String × Val Cls)} (h : readWith tables m (.elem t as ds) = .ok (.obj c fs)) :
    ∀ a w, (a, w) ∈ fs → ∃ f ∈ Schema.ctor c, f.attr = a ∧ fits f w = true := by
  unfold readWith at h
  rw [rden_elem] at h
  replace h : runReader tables m t as (leadText ds) (rdenKids tables ds) = .ok (.obj c fs) := h
  have key : ∀ c' data, build tables c' data = .ok (.obj c fs) →
      ∀ a w, (a, w) ∈ fs → ∃ f ∈ Schema.ctor c, f.attr = a ∧ fits f w = true := by
    intro c' data hb
    obtain ⟨fs', he, hf⟩ := build_fits hb
    cases he
    exact hf
  have hres := run_res h
  unfold runReader at h
  have htab : tables.rm m t = rm m t := rfl
  rw [htab] at h
  cases hm : rm m t with
  | bad e => rw [hm] at h; cases h
  | ref cls d =>
    rw [hm] at hres
    obtain ⟨r, hr, -⟩ := hres
    cases hr
  | node c' items =>
    rw [hm] at h
    simp only at h
    split at h
    · cases h
    · exact key _ _ h
  | mixed c' items k tags skipped =>
    rw [hm] at h
    simp only at h
    split at h
    · cases h
    · split at h
      · cases h
      · exact key _ _ h

/-! ### Static checks -/

/-- The number is read with `int(text, 0)`. -/
def isInteger (tag : String) : RItem RM → Bool
  | .one t _ .self [(none, .conv .integer)] _ false => t = tag
  | .one t _ .self [(none, .conv .posInt)] _ false => t = tag
  | _ => false

/-- The number is read with `int(text)` or `float(text)`. -/
def isPlainNumber (tag : String) : RItem RM → Bool
  | .one t _ .self [(none, .conv .number)] _ false => t = tag
  | .one t _ .self [(none, .conv .int)] _ false => t = tag
  | .one t _ .self [(none, .limit)] _ false => t = tag
  | _ => false

def rowOk (items : List (RItem RM)) (c : Cls) (r : Cls × String × String) : Bool :=
  r.1 ≠ c || (items.any (isInteger r.2.2) &&
    items.all fun i => isInteger r.2.2 i || (itemFits false i && blind i r.2.2))

def plainOk (items : List (RItem RM)) (c : Cls) (r : Cls × String × String) : Bool :=
  r.1 ≠ c || items.any (isPlainNumber r.2.2)

def methNums : RMethod Cls RM → Bool
  | .node c items => integerParts.all (rowOk items c) && plainParts.all (plainOk items c)
  | .mixed c _ _ _ _ => (integerParts ++ plainParts).all fun r => r.1 ≠ c
  | _ => true

theorem nums_fixed : ∀ n < 202, methNums (rm (RM.ofNat n) "") = true := by decide +kernel

theorem nums_ok (m : RM) (t : String) : methNums (rm m t) = true := by
  by_cases hb : byTag m = true
  · cases m <;> simp only [byTag, Bool.false_eq_true] at hb
    · show methNums (Reader.multi_language_long_name t) = true
      unfold Reader.multi_language_long_name
      split <;> first | rfl | decide +kernel
    · show methNums (Reader.multi_language_overview_paragraph t) = true
      unfold Reader.multi_language_overview_paragraph
      split <;> first | rfl | decide +kernel
    · show methNums (Reader.port_in_composition_type_instance_ref t) = true
      unfold Reader.port_in_composition_type_instance_ref
      split <;> first | rfl | decide +kernel
  · rw [rm_fixed (by simpa using hb) t ""]
    have h : m.ctorIdx < 202 := by cases m <;> decide
    have := nums_fixed _ h
    rwa [RM.ofNat_ctorIdx] at this

/-- The attributes are in the table of places, and take integers only. -/
theorem integers_typed : (integerParts.all fun r =>
    (parts r.1).any (fun p => decide (p = (r.2.1, Place.child r.2.2))) &&
    (Schema.ctor r.1).all fun f => f.attr ≠ r.2.1 ||
      (f.shape = .one && f.alts.all fun a => match a with | .int | .nat => true | _ => false)) = true := by
  decide +kernel

/-! ### Elements -/

/-- The child that is read for a tag. -/
theorem child_text {tag : String} {ds : List Dom} {u : String} {a : Attrs} {xs : List Dom}
    (h : firstElem tag ds = some (.elem u a xs)) :
    ∃ k : RD, childOf tag (rdenKids tables ds) = some k ∧ k.text = leadText xs ∧ k.attrs = a ∧
      k.tag = tag := by
  have hs : (childOf tag (rdenKids tables ds)).isSome = true := by
    rw [(child_first _ ds).1, h]; rfl
  obtain ⟨k, hk⟩ := Option.isSome_iff_exists.1 hs
  obtain ⟨d, tl, hd, hden⟩ := (child_first _ ds).2 k hk
  rw [h] at hd
  cases hd
  rw [rden_elem] at hden
  cases hden
  exact ⟨_, hk, rfl, rfl, child_tag hk⟩

/-- The statement depends on the value of the number only. -/
theorem integer_item {as : Attrs} {x x' : Option String} {ks ks' : List RD} {i : RItem RM}
    {tag s s' : String} {k k' : RD} (hi : isInteger tag i = true)
    (hk : childOf tag ks = some k) (hk' : childOf tag ks' = some k')
    (ht : k.text = some s) (ht' : k'.text = some s') (h : pyInt0 s.toList = pyInt0 s'.toList) :
    readItem as x ks i = readItem as x' ks' i := by
  unfold isInteger at hi
  split at hi
  · have := of_decide_eq_true hi
    subst this
    simp only [readItem, hk, hk', Inner.get, readCall, pickTag, true_or, if_true, readAtom, ht, ht',
      Conv.run, readInteger, h]
  · have := of_decide_eq_true hi
    subst this
    simp only [readItem, hk, hk', Inner.get, readCall, pickTag, true_or, if_true, readAtom, ht, ht',
      Conv.run, positiveIntegerOfText, h]
  · cases hi

theorem integer_fails {as : Attrs} {x : Option String} {ks : List RD} {i : RItem RM}
    {tag s : String} {k : RD} (hi : isInteger tag i = true) (hk : childOf tag ks = some k)
    (ht : k.text = some s) (h : pyInt0 s.toList = none) :
    ∃ e, readItem as x ks i = .error e := by
  unfold isInteger at hi
  split at hi
  · have := of_decide_eq_true hi
    subst this
    exact ⟨.parseError, by simp [readItem, hk, Inner.get, readCall, pickTag, readAtom, ht, Conv.run,
      readInteger, h]⟩
  · have := of_decide_eq_true hi
    subst this
    exact ⟨.typeError, by simp [readItem, hk, Inner.get, readCall, pickTag, readAtom, ht, Conv.run,
      positiveIntegerOfText, h]⟩
  · cases hi

theorem plain_fails {as : Attrs} {x : Option String} {ks : List RD} {i : RItem RM}
    {tag s : String} {k : RD} (hi : isPlainNumber tag i = true) (hk : childOf tag ks = some k)
    (ht : k.text = some s) (h : pyInt s.toList = none) (hf : pyFloat s.toList = none) :
    ∃ e, readItem as x ks i = .error e := by
  have hr : readNumber s.toList = .error .parseError := by simp [readNumber, h, hf]
  unfold isPlainNumber at hi
  split at hi
  · have := of_decide_eq_true hi
    subst this
    exact ⟨.parseError, by simp [readItem, hk, Inner.get, readCall, pickTag, readAtom, ht, Conv.run,
      hr]⟩
  · have := of_decide_eq_true hi
    subst this
    exact ⟨.valueError, by simp [readItem, hk, Inner.get, readCall, pickTag, readAtom, ht, Conv.run,
      h]⟩
  · have := of_decide_eq_true hi
    subst this
    have : ∃ e, readLimit k = .error e := by
      unfold readLimit
      rw [ht]
      simp only [hr]
      split
      · rename_i h; cases h
      · exact ⟨_, rfl⟩
      · exact ⟨_, rfl⟩
    obtain ⟨e, he⟩ := this
    exact ⟨e, by simp [readItem, hk, Inner.get, readCall, pickTag, readAtom, he]⟩
  · cases hi

theorem fails_of {m : RM} {t : String} {as : Attrs} {ds : List Dom} {c : Cls}
    {items : List (RItem RM)} {i : RItem RM} (hm : rm m t = .node c items) (hi : i ∈ items)
    (h : ∃ e, readItem as (leadText ds) (rdenKids tables ds) i = .error e) :
    ∃ e, readWith tables m (.elem t as ds) = .error e := by
  obtain ⟨e, he⟩ := h
  unfold readWith
  rw [rden_elem]
  show ∃ e, runReader tables m t as (leadText ds) (rdenKids tables ds) = .error e
  have hm' : tables.rm m t = .node c items := hm
  unfold runReader
  rw [hm']
  obtain ⟨e', he'⟩ := collect_nil (List.mem_map.2 ⟨_, hi, he⟩)
  exact ⟨e', by simp only [he']⟩

/-- The method makes objects of the class from parts. -/
theorem node_of {m : RM} {t : String} {c : Cls} (hc : objClass m t = some c)
    {r : Cls × String × String} (hr : r ∈ integerParts ++ plainParts) (h : r.1 = c) :
    ∃ items, rm m t = .node c items := by
  have hn := nums_ok m t
  unfold objClass at hc
  cases hm : rm m t with
  | bad e => rw [hm] at hc; cases hc
  | ref cls d => rw [hm] at hc; cases hc
  | mixed c' items key tags skipped =>
    rw [hm] at hc hn
    cases hc
    have := List.all_eq_true.1 hn r hr
    simp [h] at this
  | node c' items =>
    rw [hm] at hc
    cases hc
    exact ⟨items, rfl⟩

theorem notation_same {m : RM} {t : String} {as : Attrs} {ds ds' : List Dom} {c : Cls}
    {a tag u u' : String} {as1 as2 : Attrs} {xs xs' : List Dom} {s s' : String}
    (hc : objClass m t = some c) (hr : (c, a, tag) ∈ integerParts)
    (h : ∀ tg, tg ≠ tag → firstElem tg ds = firstElem tg ds')
    (hx : firstElem tag ds = some (.elem u as1 xs)) (hx' : firstElem tag ds' = some (.elem u' as2 xs'))
    (hl : leadText xs = some s) (hl' : leadText xs' = some s')
    (hn : pyInt0 s.toList = pyInt0 s'.toList) :
    readWith tables m (.elem t as ds) = readWith tables m (.elem t as ds') := by
  obtain ⟨items, hm⟩ := node_of hc (List.mem_append_left _ hr) rfl
  have hok := nums_ok m t
  have hcalls := calls_ok m t
  rw [hm] at hok hcalls
  simp only [methNums, Bool.and_eq_true] at hok
  have hrow := List.all_eq_true.1 hok.1 _ hr
  simp only [rowOk, ne_eq, not_true_eq_false, decide_false, Bool.false_or, Bool.and_eq_true,
    List.all_eq_true, Bool.or_eq_true] at hrow
  simp only [methCalls, List.all_eq_true] at hcalls
  obtain ⟨k, hk, hkt, -⟩ := child_text hx
  obtain ⟨k', hk', hkt', -⟩ := child_text hx'
  unfold readWith
  rw [rden_elem, rden_elem]
  show runReader tables m t as (leadText ds) (rdenKids tables ds) =
    runReader tables m t as (leadText ds') (rdenKids tables ds')
  have hm' : tables.rm m t = .node c items := hm
  unfold runReader
  rw [hm']
  have : items.map (readItem as (leadText ds) (rdenKids tables ds)) =
      items.map (readItem as (leadText ds') (rdenKids tables ds')) := by
    apply List.map_congr_left
    intro i hi
    rcases hrow.2 i hi with h2 | h2
    · exact integer_item h2 hk hk' (hkt.trans hl) (hkt'.trans hl') hn
    · rw [← item_others _ _ (rdenKids tables ds) h2.2,
        ← item_others _ _ (rdenKids tables ds') h2.2]
      exact item_agree (others_byTag h) (fun u hu =>
        .inr (.inr ⟨m, t, c, items, hm, i, hi, hu⟩)) h2.1 (hcalls i hi)
  simp only [this]

theorem integer_unreadable {m : RM} {t : String} {as : Attrs} {ds : List Dom} {c : Cls}
    {a tag u : String} {as1 : Attrs} {xs : List Dom} {s : String}
    (hc : objClass m t = some c) (hr : (c, a, tag) ∈ integerParts)
    (hx : firstElem tag ds = some (.elem u as1 xs)) (hl : leadText xs = some s)
    (hn : pyInt0 s.toList = none) : ∃ e, readWith tables m (.elem t as ds) = .error e := by
  obtain ⟨items, hm⟩ := node_of hc (List.mem_append_left _ hr) rfl
  have hok := nums_ok m t
  rw [hm] at hok
  simp only [methNums, Bool.and_eq_true] at hok
  have hrow := List.all_eq_true.1 hok.1 _ hr
  simp only [rowOk, ne_eq, not_true_eq_false, decide_false, Bool.false_or, Bool.and_eq_true] at hrow
  obtain ⟨i, hi, h2⟩ := List.any_eq_true.1 hrow.1
  obtain ⟨k, hk, hkt, -⟩ := child_text hx
  exact fails_of hm hi (integer_fails h2 hk (hkt.trans hl) hn)

theorem plain_unreadable {m : RM} {t : String} {as : Attrs} {ds : List Dom} {c : Cls}
    {a tag u : String} {as1 : Attrs} {xs : List Dom} {s : String}
    (hc : objClass m t = some c) (hr : (c, a, tag) ∈ plainParts)
    (hx : firstElem tag ds = some (.elem u as1 xs)) (hl : leadText xs = some s)
    (hn : pyInt s.toList = none) (hf : pyFloat s.toList = none) :
    ∃ e, readWith tables m (.elem t as ds) = .error e := by
  obtain ⟨items, hm⟩ := node_of hc (List.mem_append_right _ hr) rfl
  have hok := nums_ok m t
  rw [hm] at hok
  simp only [methNums, Bool.and_eq_true] at hok
  have hrow := List.all_eq_true.1 hok.2 _ hr
  simp only [plainOk, ne_eq, not_true_eq_false, decide_false, Bool.false_or] at hrow
  obtain ⟨i, hi, h2⟩ := List.any_eq_true.1 hrow
  obtain ⟨k, hk, hkt, -⟩ := child_text hx
  exact fails_of hm hi (plain_fails h2 hk (hkt.trans hl) hn hf)

/-- The attribute is an integer that the text denotes. -/
theorem integer_value {m : RM} {t : String} {as : Attrs} {ds : List Dom} {c : Cls}
    {fs : List (String × Val Cls)} {a tag u : String} {as1 : Attrs} {xs : List Dom} {s : String}
    (hr : (c, a, tag) ∈ integerParts)
    (h : readWith tables m (.elem t as ds) = .ok (.obj c fs))
    (hx : firstElem tag ds = some (.elem u as1 xs)) (hl : leadText xs = some s) :
    ∃ i, dictGet fs a = some (.num (.int i)) ∧ IsNumber s (.int i) := by
  have hty := List.all_eq_true.1 integers_typed _ hr
  simp only [Bool.and_eq_true, List.any_eq_true, decide_eq_true_eq, exists_eq_right,
    List.all_eq_true, Bool.or_eq_true] at hty
  have hs := readWith_says h
  cases hs with
  | text _ h => exact h.elim
  | obj hp _ =>
    have hf := hp a _ hty.1
    cases hv : dictGet fs a with
    | none =>
      rw [hv] at hf
      cases hf with
      | child_none h => rw [hx] at h; cases h
    | some v =>
      rw [hv] at hf
      cases hf with
      | child h1 h2 =>
        rw [hx] at h1
        cases h1
        obtain ⟨f, hfm, hfa, hfit⟩ := read_fits h a v (dictGet_mem' hv)
        rcases hty.2 f hfm with hne | ⟨hsh, halts⟩
        · exact absurd hfa hne
        · have : ∃ i, v = .num (.int i) := by
            cases v with
            | list vs => simp [fits, hsh] at hfit
            | num y =>
              cases y with
              | int i => exact ⟨i, rfl⟩
              | float f' =>
                exfalso
                simp only [fits, Bool.and_eq_true, List.any_eq_true] at hfit
                obtain ⟨-, al, hal, hfs⟩ := hfit
                have := halts al hal
                cases al <;> simp_all [fitsS]
            | _ =>
              exfalso
              simp only [fits, Bool.and_eq_true, List.any_eq_true] at hfit
              obtain ⟨-, al, hal, hfs⟩ := hfit
              have := halts al hal
              cases al <;> simp_all [fitsS]
          obtain ⟨i, rfl⟩ := this
          exact ⟨i, rfl, says_number h2 hl rfl⟩

end Verif.Codec.Notation
