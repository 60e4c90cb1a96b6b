import Verif.Codec.Spec
/-
The tables of writer and reader agree, so every object of a class with a writer and a reader
survives being written and read.
-/
set_option linter.unusedSectionVars false
namespace Verif.Codec
open Verif.Py Verif.Num Verif.Xml Verif.Xml.Spec Verif.Codec.Spec

set_option maxRecDepth 4000 in
theorem tables_ok : allOk tables pairs = true := by decide +kernel

theorem wm_fixed (m : WM) (arg : Option String) :
    m = .multi_language_overview_paragraph ∨ m = .port_in_composition_type_instance_ref ∨
      wm m arg = wm m none := by
  cases m <;> first | exact .inl rfl | exact .inr (.inl rfl) | exact .inr (.inr rfl)

theorem fixed_safe : ∀ n < 202, methSafe xmlAttrs (wm (WM.ofNat n) none) = true := by
  decide +kernel

theorem tables_safe : ∀ m arg, argSafe arg = true → methSafe xmlAttrs (tables.wm m arg) = true := by
  intro m arg ha
  show methSafe xmlAttrs (wm m arg) = true
  rcases wm_fixed m arg with rfl | rfl | h
  · simp only [wm, Writer.multi_language_overview_paragraph]
    split <;> decide +kernel
  · simp only [wm, Writer.port_in_composition_type_instance_ref]
    split <;> decide +kernel
  · rw [h]
    have hm : m.ctorIdx < 202 := by cases m <;> decide
    have := fixed_safe m.ctorIdx hm
    rwa [WM.ofNat_ctorIdx] at this

/-! ### Same object -/

theorem sameNum_canon (n : PyNum) : SameNum n (canonNum n) := by
  unfold canonNum
  split
  · rename_i neg c e
    split
    · subst_vars; exact .zero _ _
    · split
      · rename_i he
        obtain ⟨k, rfl⟩ : ∃ k : Nat, e = k := ⟨e.toNat, by omega⟩
        exact .whole neg c k
      · exact .same _
  · exact .same _

theorem canon_fractional {n : PyNum} (h : fractional n = true) : canonNum n = n := by
  unfold canonNum
  split
  · rename_i neg c e
    simp only [fractional, Bool.and_eq_true, decide_eq_true_eq] at h
    rw [if_neg h.1, if_neg (by omega)]
  · rfl

theorem same_first {C : Type} {v w : Val C} (h : Same v w) : Same (onlyFirst v) (onlyFirst w) := by
  cases h with
  | same => exact .same _
  | num h => exact .num h
  | limit m h => exact .limit m h
  | obj c h => exact .obj c h
  | list h =>
    cases h with
    | nil => exact .same _
    | cons h _ => exact .list (.cons h .nil)

theorem cuts_ok : ∀ n < 186, ((covered (Cls.ofNat n)).all fun f =>
    decide (f.shape = .first) == decide (f.attr ∈ firstOnly (Cls.ofNat n))) = true := by
  decide +kernel

theorem firsts_ok (c : Cls) : firstOnly c = [] ∨ c = .SwDataDefPropsConditional := by
  unfold firstOnly
  split
  · exact .inr rfl
  · exact .inl rfl

theorem cut_first (c : Cls) (k : String) (v : Val Cls) :
    cutAt (covered c) k v = if k ∈ firstOnly c then onlyFirst v else v := by
  unfold cutAt
  cases hf : fieldOf (covered c) k with
  | none =>
    rcases firsts_ok c with h | rfl
    · simp [h]
    · have : k ≠ "annotations" := by
        rintro rfl
        have h : (fieldOf (covered .SwDataDefPropsConditional) "annotations").isSome = true := by
          decide +kernel
        rw [hf] at h
        cases h
      simp [firstOnly, this]
  | some f =>
    obtain ⟨hm, ha⟩ := fieldOf_mem hf
    have hn : c.ctorIdx < 186 := by cases c <;> decide
    have := cuts_ok c.ctorIdx hn
    rw [Cls.ofNat_ctorIdx] at this
    simp only [List.all_eq_true, beq_iff_eq, decide_eq_decide] at this
    have := this f hm
    rw [ha] at this
    show f.cut v = _
    by_cases hs : f.shape = .first
    · rw [if_pos (this.1 hs)]
      unfold Field.cut onlyFirst
      rw [hs]
      cases v with
      | list vs => cases vs <;> rfl
      | _ => rfl
    · rw [if_neg (fun h => hs (this.2 h)), cut_of rfl hs]

mutual
theorem same_norm (b : Bool) : ∀ v : Val Cls, Same (kept lossy firstOnly v) (normVal tables b v)
  | .num n => by
    simp only [normVal]
    split
    · exact .num (sameNum_canon n)
    · exact .same _
  | .limit n m => .limit m (sameNum_canon n)
  | .list vs => .list (same_normList b vs)
  | .obj c fs => .obj c (same_normFields c fs)
  | .str _ | .bool _ | .numval _ | .enum _ | .ref _ => .same _
theorem same_normList (b : Bool) : ∀ vs : List (Val Cls),
    SameList (keptList lossy firstOnly vs) (normList tables b vs)
  | [] => .nil
  | v :: vs => .cons (same_norm b v) (same_normList b vs)
theorem same_normFields (c : Cls) : ∀ fs : List (String × Val Cls),
    SameFields (keptFields lossy firstOnly c fs) (normFields tables c fs)
  | [] => .nil
  | (k, v) :: rest => by
    simp only [keptFields, normFields]
    show SameFields _ (if k ∈ lossy c then _ else (k, cutAt (covered c) k _) :: _)
    by_cases hl : k ∈ lossy c
    · rw [if_pos hl, if_pos hl]
      exact same_normFields c rest
    · rw [if_neg hl, if_neg hl]
      refine .cons k ?_ (same_normFields c rest)
      rw [cut_first]
      split
      · exact same_first (same_norm _ v)
      · exact same_norm _ v
end

mutual
theorem norm_noWhole (b : Bool) : ∀ v : Val Cls, noWhole v = true →
    normVal tables b v = kept lossy firstOnly v
  | .num n, h => by
    simp only [normVal, kept]
    rw [canon_fractional (by simpa [noWhole] using h), ite_self]
  | .limit n m, h => by
    simp only [normVal, kept]
    rw [canon_fractional (by simpa [noWhole] using h)]
  | .list vs, h => by
    simp only [normVal, kept]
    rw [norm_noWholeList b vs (by simpa [noWhole] using h)]
  | .obj c fs, h => by
    simp only [normVal, kept]
    rw [norm_noWholeFields _ fs (by simpa [noWhole] using h)]
  | .str _, _ | .bool _, _ | .numval _, _ | .enum _, _ | .ref _, _ => rfl
theorem norm_noWholeList (b : Bool) : ∀ vs : List (Val Cls),
    noWholeList vs = true → normList tables b vs = keptList lossy firstOnly vs
  | [], _ => rfl
  | v :: vs, h => by
    simp only [noWholeList, Bool.and_eq_true] at h
    simp only [normList, keptList]
    rw [norm_noWhole b v h.1, norm_noWholeList b vs h.2]
theorem norm_noWholeFields (c : Cls) : ∀ fs : List (String × Val Cls),
    noWholeFields fs = true → normFields tables c fs = keptFields lossy firstOnly c fs
  | [], _ => rfl
  | (k, v) :: rest, h => by
    simp only [noWholeFields, Bool.and_eq_true] at h
    simp only [normFields, keptFields]
    rw [norm_noWhole _ v h.1, norm_noWholeFields c rest h.2]
    show (if k ∈ lossy c then _ else (k, cutAt (covered c) k _) :: _) = _
    rw [cut_first]
end

/-! ### Single elements -/

/-- Objects of class `c` can be written with tag argument `tag` and read with type name `ty`. -/
def topOk (c : Cls) (tag ty : Option String) : Bool :=
  argSafe tag &&
  match writerSwitch c with
  | none => false
  | some w =>
    callable w tag &&
    match methTag tables w tag with
    | none => false
    | some t =>
      match readerOf ty t with
      | none => false
      | some r => pairs.contains ⟨c, w, tag, r⟩

theorem elem_rt {c : Cls} {tag ty : Option String} (ht : topOk c tag ty = true) {v : Val Cls}
    (h : WellFormed c v) :
    ∃ text, writeStrElem tag v = .ok text ∧
      readStrElem ty text = .ok (normVal tables false v) := by
  simp only [topOk, Bool.and_eq_true] at ht
  obtain ⟨ha, ht⟩ := ht
  split at ht
  · simp at ht
  rename_i w hw
  simp only [Bool.and_eq_true] at ht
  obtain ⟨hc, ht⟩ := ht
  split at ht
  · simp at ht
  rename_i t hm
  split at ht
  · simp at ht
  rename_i r hr
  have hp : (⟨c, w, tag, r⟩ : Pair Cls WM RM) ∈ pairs := by simpa using ht
  obtain ⟨x, tag', h1, h2, h3, -, h4⟩ := all_good tables pairs tables_ok v _ hp h.1
  simp only at h1 h2 h4
  rw [hm] at h1
  obtain rfl : t = tag' := by simpa using h1
  have hx : Safe x := (all_safe tables tables_safe v h.2).2 w tag [x] ha h2 x (by simp)
  have hwv : writerOf v = some w := by
    cases v <;> simp [hasS, WellFormed] at h
    obtain ⟨⟨⟨rfl, -⟩, -⟩, -⟩ := h
    exact hw
  refine ⟨render 0 x, ?_, ?_⟩
  · unfold writeStrElem writeWith
    rw [hwv]
    simp only [hc, if_true, h2]
    rw [Verif.Props.Xml.C17_lines, joinLines_render]
  · have hpr := parse_render x hx [] (by simp)
    simp only [List.nil_append] at hpr
    obtain ⟨k, hk⟩ := rden_some tables none 0 x
    obtain ⟨as, ds, hd⟩ : ∃ as ds, domOf 0 x = .elem (xtag x) as ds := by
      cases x <;> exact ⟨_, _, rfl⟩
    unfold readStrElem
    rw [hpr, hd]
    simp only [readTreeElem, h3, hr]
    rw [h3] at hd
    unfold readWith
    rw [← hd, hk]
    exact h4 0 none k hk

theorem survives {c : Cls} {tag ty : Option String} (ht : topOk c tag ty = true) {v : Val Cls}
    (h : WellFormed c v) : Survives tag ty v := by
  obtain ⟨text, h1, h2⟩ := elem_rt ht h
  exact ⟨text, _, h1, h2, same_norm false v, norm_noWhole false v⟩

/-! ### Elements that cannot be written -/

theorem collect_error {α β : Type} {f : α → Except PyErr (List β)} {l : List α} {x : α} {e : PyErr}
    (hx : x ∈ l) (he : f x = .error e) : ∃ e', collect (l.map f) = .error e' := by
  induction l with
  | nil => simp at hx
  | cons y l ih =>
    simp only [List.map_cons]
    cases hy : f y with
    | error e' => exact ⟨e', rfl⟩
    | ok a =>
      obtain ⟨e', h'⟩ := ih (by
        rcases List.mem_cons.1 hx with rfl | h
        · rw [he] at hy; cases hy
        · exact h)
      exact ⟨e', by simp only [collect, h']⟩

/-- If one statement of the writer method raises, writing raises. -/
theorem elem_error {c : Cls} {fs : List (String × Val Cls)} {w : WM} {acc : Option Cls}
    {tag : Option String} {A : List WAttr} {items : List (WItem Cls WM)} {it : WItem Cls WM}
    {e : PyErr} (hw : writerSwitch c = some w) (hm : wm w none = .node acc tag A false items)
    (hi : it ∈ items) (he : writeItem tables (wdenFields tables fs) it = .error e) :
    ∃ e', writeStrElem none (.obj c fs) = .error e' := by
  unfold writeStrElem
  rw [show writerOf (.obj c fs) = some w from hw]
  simp only
  split
  · have : ∃ e', writeWith tables w none (.obj c fs) = .error e' := by
      show ∃ e', runWriter tables w none (.obj c fs) (wdenFields tables fs) = .error e'
      unfold runWriter
      rw [show tables.wm w none = .node acc tag A false items from hm]
      obtain ⟨e', h'⟩ := collect_error hi he
      simp only [Bool.false_and, Bool.false_eq_true, if_false, h']
      generalize (match acc with | some c => isInst tables c (.obj c fs) | none => true) = b
      repeat' split
      all_goals exact ⟨_, rfl⟩
    obtain ⟨e', h'⟩ := this
    exact ⟨e', by rw [h']⟩
  · exact ⟨_, rfl⟩

/-! ### Classes of which less is lost -/

variable {C W R : Type} [DecidableEq C]

/-- Objects of the classes `S` consist of objects of the classes `S`, of which exactly the
attributes `lost` and all but the first of the attributes `first` are lost. -/
def closedFor (T : Tables C W R) (first lost' first' : C → List String) (S : List C) : Bool :=
  S.all fun c => T.lost c == lost' c && first c == first' c &&
    (T.schema c).all fun f => f.alts.all fun a =>
      match a with
      | .cls c' => decide (c' ∈ S)
      | _ => true

theorem keptList_map (lost first : C → List String) (vs : List (Val C)) :
    keptList lost first vs = vs.map (kept lost first) := by
  induction vs with
  | nil => rfl
  | cons v vs ih => simp [keptList, ih]

theorem kept_eq [DecidableEq W] [DecidableEq R] (T : Tables C W R) {S : List C}
    {first lost' first' : C → List String}
    (hS : closedFor T first lost' first' S = true) {v : Val C} {c : C}
    (hc : c ∈ S) (h : hasS T v (.cls c) = true) : kept T.lost first v = kept lost' first' v := by
  have key : ∀ n : Nat, ∀ (v : Val C) (a : STy C), sizeOf v < n → (∀ c, a = .cls c → c ∈ S) →
      hasS T v a = true → kept T.lost first v = kept lost' first' v := by
    intro n
    induction n with
    | zero => intro v a hn; omega
    | succ n ih =>
      intro v a hn ha h
      cases v with
      | obj c fs =>
        cases a <;> simp [hasS] at h
        rename_i c'
        obtain ⟨⟨rfl, ho⟩, hf⟩ := h
        have hc := ha c rfl
        have hS' := hS
        simp only [closedFor, List.all_eq_true, Bool.and_eq_true] at hS'
        have hS' := hS' c hc
        have hl : T.lost c = lost' c := by simpa using hS'.1.1
        have hf' : first c = first' c := by simpa using hS'.1.2
        simp only [kept, Val.obj.injEq, true_and]
        have hsz : ∀ k u, (k, u) ∈ fs → sizeOf u < n := by
          intro k u hu
          have h1 := List.sizeOf_lt_of_mem hu
          simp at h1 hn
          omega
        clear ho hn
        induction fs with
        | nil => rfl
        | cons p fs ihf =>
          obtain ⟨k, u⟩ := p
          rw [hasFields_cons, Bool.and_eq_true] at hf
          rw [keptFields, keptFields, ihf hf.2 (fun k' u' hu => hsz k' u' (by simp [hu])), hl, hf']
          have hu := hsz k u (by simp)
          suffices hk : kept T.lost first u = kept lost' first' u by rw [hk]
          obtain ⟨f, hfo, hty⟩ : ∃ f, fieldOf (T.schema c) k = some f ∧ hasField T f u = true := by
            cases hfo : fieldOf (T.schema c) k with
            | none => simp [hfo] at hf
            | some f => exact ⟨f, rfl, by simpa [hfo] using hf.1⟩
          have hal : ∀ a ∈ f.alts, ∀ c', a = .cls c' → c' ∈ S := by
            rintro a ha' c' rfl
            simpa using hS'.2 f (fieldOf_mem hfo).1 _ ha'
          have hlist : ∀ vs, u = .list vs → hasList T f.alts vs = true →
              kept T.lost first u = kept lost' first' u := by
            rintro vs rfl hvs
            rw [hasList_iff] at hvs
            simp only [kept, keptList_map, Val.list.injEq]
            refine List.map_congr_left ?_
            intro w hw
            obtain ⟨a, ha', hva⟩ := hvs w hw
            have h1 := List.sizeOf_lt_of_mem hw
            simp at hu
            exact ih w a (by omega) (hal a ha') hva
          unfold hasField at hty
          split at hty
          · simp only [List.any_eq_true] at hty
            obtain ⟨a, ha', hva⟩ := hty
            exact ih u a hu (hal a ha') hva
          all_goals
            split at hty
            · simp only [Bool.and_eq_true] at hty
              exact hlist _ rfl hty.2
            · simp at hty
      | list vs => simp [hasS] at h
      | _ => rfl
  exact key (sizeOf v + 1) v _ (by omega) (by rintro c' ⟨⟩; exact hc) h

mutual
theorem kept_nothing : ∀ v : Val C, kept (fun _ => []) (fun _ => []) v = v
  | .list vs => by simp only [kept, kept_nothingList vs]
  | .obj c fs => by simp only [kept, kept_nothingFields c fs]
  | .str _ | .bool _ | .num _ | .numval _ | .enum _ | .limit _ _ | .ref _ => rfl
theorem kept_nothingList : ∀ vs : List (Val C), keptList (fun _ => []) (fun _ => []) vs = vs
  | [] => rfl
  | v :: vs => by simp only [keptList, kept_nothing v, kept_nothingList vs]
theorem kept_nothingFields (c : C) : ∀ fs : List (String × Val C),
    keptFields (fun _ => []) (fun _ => []) c fs = fs
  | [] => rfl
  | (k, v) :: rest => by
    simp [keptFields, kept_nothing v, kept_nothingFields c rest]
end

theorem survives_but {S : List Cls} {lost first : Cls → List String}
    (hS : closedFor tables firstOnly lost first S = true) {c : Cls} (hc : c ∈ S)
    {tag ty : Option String} (ht : topOk c tag ty = true) {v : Val Cls} (h : WellFormed c v) :
    SurvivesBut lost first tag ty v := by
  obtain ⟨text, v', h1, h2, h3, h4⟩ := survives ht h
  have hk : remains v = kept lost first v := kept_eq tables hS hc h.1
  rw [hk] at h3 h4
  exact ⟨text, v', h1, h2, h3, h4⟩

/-- All of these classes with the given tag argument and type name. -/
theorem all_survive_but {S : List Cls} {lost first : Cls → List String}
    (hS : closedFor tables firstOnly lost first S = true)
    {forms : List (Cls × Option String × Option String)}
    (hf : forms.all (fun x => decide (x.1 ∈ S) && topOk x.1 x.2.1 x.2.2) = true) :
    ∀ x ∈ forms, ∀ v, WellFormed x.1 v → SurvivesBut lost first x.2.1 x.2.2 v := by
  intro x hx v h
  simp only [List.all_eq_true, Bool.and_eq_true, decide_eq_true_eq] at hf
  exact survives_but hS (hf x hx).1 (hf x hx).2 h

theorem intact {S : List Cls}
    (hS : closedFor tables firstOnly (fun _ => []) (fun _ => []) S = true) {c : Cls} (hc : c ∈ S)
    {tag ty : Option String} (ht : topOk c tag ty = true) {v : Val Cls} (h : WellFormed c v) :
    Intact tag ty v := by
  obtain ⟨text, v', h1, h2, h3, h4⟩ := survives_but hS hc ht h
  rw [kept_nothing] at h3 h4
  exact ⟨text, v', h1, h2, h3, h4⟩

theorem all_intact {S : List Cls}
    (hS : closedFor tables firstOnly (fun _ => []) (fun _ => []) S = true)
    {forms : List (Cls × Option String × Option String)}
    (hf : forms.all (fun x => decide (x.1 ∈ S) && topOk x.1 x.2.1 x.2.2) = true) :
    ∀ x ∈ forms, ∀ v, WellFormed x.1 v → Intact x.2.1 x.2.2 v := by
  intro x hx v h
  simp only [List.all_eq_true, Bool.and_eq_true, decide_eq_true_eq] at hf
  exact intact hS (hf x hx).1 (hf x hx).2 h

end Verif.Codec
