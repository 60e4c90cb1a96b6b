import Verif.Codec.History
import Verif.Codec.HistorySpec
import Verif.Codec.AppendProof
import Verif.Codec.ConnectAdd
import Verif.Codec.TypeHeaderProof
import Verif.Codec.LoadDoc
import Verif.Codec.ConstantProof
/-
Lemmas for C69: parts of elements.
-/
set_option linter.unusedSimpArgs false
namespace Verif.Codec.History
open Verif.Py Verif.Ref Verif.Codec Verif.Codec.Spec Verif.Codec.Find Verif.Codec.FindSpec
open Verif.Codec.HistorySpec Verif.Codec.ConnectSpec Verif.Codec.Older.Spec
open Verif.Codec.Append (canon kindsAgree kindsAgree_holds)
open Verif.Codec.TypeHeader (get_norm kept_list)

/-- It is the method of C60, for objects that are no runnables. -/
theorem choose_add (D : Names.Digits) {c : Cls} (hc : c ≠ .RunnableEntity) (fs : List (String × Val Cls)) (m : String)
    (x : Val Cls) : Append.add D (.obj c fs) m x =
      some ((choose c m x).map fun p => withPart p.1 p.2 (.obj c fs)) := by
  unfold Append.add choose
  simp only
  cases (Append.methods c).find? fun r => r.name = m with
  | none => rfl
  | some r =>
    simp only
    cases r.branches.findSome? fun b => (b.take x).map fun y => (b.attr, y) with
    | none => rfl
    | some p =>
      obtain ⟨a, y⟩ := p
      simp only [Append.addTo, hc, false_and, if_false, Option.map_some, Except.map, withPart]
      rfl

/-! ### Lists of attributes in a given order -/

def pick (ks : List String) (h : String → Option (Val Cls)) : List (String × Val Cls) :=
  ks.filterMap fun k => (h k).map fun v => (k, v)

theorem canon_pick (s : List (Field Cls)) (h : String → Option (Val Cls)) :
    canon s (fun f => h f.attr) = pick (s.map Field.attr) h := by
  simp only [canon, pick, List.filterMap_map]
  rfl

theorem pick_keys (ks : List String) (h : String → Option (Val Cls)) :
    (pick ks h).map (·.1) = ks.filter fun k => (h k).isSome := by
  induction ks with
  | nil => rfl
  | cons k ks ih =>
    simp only [pick, List.filterMap_cons] at ih ⊢
    rw [List.filter_cons]
    cases h k with
    | none => simpa using ih
    | some v => simpa using ih

theorem pick_mem {ks : List String} {h : String → Option (Val Cls)} {k : String} {v : Val Cls}
    (hm : (k, v) ∈ pick ks h) : k ∈ ks ∧ h k = some v := by
  obtain ⟨k', h1, h2⟩ := List.mem_filterMap.1 hm
  cases hk : h k' with
  | none => rw [hk] at h2; cases h2
  | some w =>
    rw [hk] at h2
    cases h2
    exact ⟨h1, hk⟩

theorem pick_get (ks : List String) (h : String → Option (Val Cls)) (k : String) :
    dictGet (pick ks h) k = if k ∈ ks then h k else none := by
  induction ks with
  | nil => rfl
  | cons j ks ih =>
    simp only [pick, List.filterMap_cons] at ih ⊢
    by_cases hj : j = k
    · subst hj
      rw [if_pos (by simp)]
      cases hh : h j with
      | none =>
        simp only [Option.map_none]
        rw [ih]
        split
        · exact hh
        · rfl
      | some v => simp only [Option.map_some, dictGet, if_true]
    · have : (k ∈ j :: ks) ↔ k ∈ ks := by
        simp only [List.mem_cons]
        exact ⟨fun h => h.elim (fun e => absurd e.symm hj) id, .inr⟩
      simp only [this]
      cases h j with
      | none => exact ih
      | some v => simp only [Option.map_some, dictGet, if_neg hj]; exact ih

/-- What is left of an attribute. -/
def left (c : Cls) (k : String) (v : Option (Val Cls)) : Option (Val Cls) :=
  if k ∈ tables.lost c then none
  else v.map fun v => cutAt (tables.schema c) k (normVal tables (numField (tables.schema c) k) v)

theorem pick_norm (c : Cls) (ks : List String) (h : String → Option (Val Cls)) :
    normFields tables c (pick ks h) = pick ks fun k => left c k (h k) := by
  induction ks with
  | nil => rfl
  | cons k ks ih =>
    simp only [pick, List.filterMap_cons] at ih ⊢
    cases hk : h k with
    | none => simp only [left, Option.map_none, ite_self]; exact ih
    | some v =>
      simp only [Option.map_some, normFields]
      by_cases hl : k ∈ tables.lost c
      · simp only [left, if_pos hl, Option.map_none]; exact ih
      · simp only [if_neg hl, left, Option.map_some]
        rw [ih]
        rfl

theorem get_left (c : Cls) (k : String) (fs : List (String × Val Cls)) :
    dictGet (normFields tables c fs) k = left c k (dictGet fs k) := by
  induction fs with
  | nil => simp [normFields, dictGet, left]
  | cons p fs ih =>
    obtain ⟨j, v⟩ := p
    rw [normFields]
    by_cases hj : j = k
    · subst hj
      split
      · rename_i hl
        rw [ih]
        simp only [left, if_pos hl]
      · rename_i hl
        simp only [left, if_neg hl, dictGet, if_true, Option.map_some]
    · split
      · rw [ih, dictGet, if_neg hj]
      · rw [dictGet, if_neg hj, ih, dictGet, if_neg hj]

theorem left_left (c : Cls) (k : String) (v : Option (Val Cls)) : left c k (left c k v) = left c k v := by
  cases v with
  | none => simp [left]
  | some v =>
    have h1 := get_left c k (normFields tables c [(k, v)])
    rw [Load.norm_normFields, get_left] at h1
    simp only [dictGet, if_true] at h1
    exact h1.symm

/-- Adding a part to what is left of an element leaves the same as adding it to the element. -/
theorem part_norm {a : String} {y : Val Cls} (h : ∀ c, kept? c a = true) (v : Val Cls) :
    normVal tables false (withPart a y (normVal tables false v)) = normVal tables false (withPart a y v) := by
  cases v with
  | obj c fs =>
    have hk := h c
    simp only [withPart, normVal]
    congr 1
    rw [canon_pick _ fun k => if k = a then some (.list (members (.obj c (normFields tables c fs)) a ++ [y]))
        else dictGet (normFields tables c fs) k,
      canon_pick _ fun k => if k = a then some (.list (members (.obj c fs) a ++ [y])) else dictGet fs k,
      pick_norm, pick_norm]
    congr 1
    funext k
    by_cases hka : k = a
    · subst hka
      simp only [if_true, left, Option.map_some]
      split
      · rfl
      · rw [cutAt_kept hk, cutAt_kept hk, kept_list hk]
        simp only [normVal, normList_map, List.map_append, List.map_map, Function.comp_def, Load.norm_norm]
    · simp only [if_neg hka, get_left, left_left]
  | limit n m => exact Load.norm_norm false (.limit n m)
  | list vs => exact Load.norm_norm false (.list vs)
  | _ => simp [withPart, normVal]

/-! ### The tables -/

def isCls : STy Cls → Bool
  | .cls _ => true
  | _ => false

def rowOk (c : Cls) : Bool :=
  !isARElement c ||
  (decide ((tables.schema c).map Field.attr =
      ((Schema.ctor c).map Field.attr).filter (· ∈ (tables.schema c).map Field.attr)) &&
    (decide ("name" ∈ (Schema.ctor c).map Field.attr) && decide (c ≠ .RunnableEntity)) &&
    (Append.methods c).all fun m => m.branches.all fun b =>
      !b.wraps && decide (b.attr ≠ "name") && decide (b.attr ∈ (Schema.ctor c).map Field.attr) &&
      match fieldOf (tables.schema c) b.attr with
      | some f => decide (f.shape = .many none) && f.alts.all isCls && kindsAgree b.kinds f.alts
      | none => false)

theorem rows_fixed : ∀ n < 186, rowOk (Cls.ofNat n) = true := by decide +kernel

/-- The attributes to which methods add. -/
def grown : List String :=
  ((List.range 186).map Cls.ofNat).flatMap fun c =>
    (Append.methods c).flatMap fun m => m.branches.map Append.Branch.attr

theorem grown_fixed : ∀ a ∈ grown, ∀ n < 186, kept? (Cls.ofNat n) a = true := by decide +kernel

theorem grown_kept {a : String} (h : a ∈ grown) (c : Cls) : kept? c a = true := by
  have := grown_fixed a h c.ctorIdx (by cases c <;> decide)
  rwa [Cls.ofNat_ctorIdx] at this

theorem row {c : Cls} (hc : isARElement c = true) :
    (tables.schema c).map Field.attr =
      ((Schema.ctor c).map Field.attr).filter (· ∈ (tables.schema c).map Field.attr) ∧
    "name" ∈ (Schema.ctor c).map Field.attr ∧ c ≠ .RunnableEntity ∧
    ∀ m ∈ Append.methods c, ∀ b ∈ m.branches, b.wraps = false ∧ b.attr ≠ "name" ∧
      b.attr ∈ (Schema.ctor c).map Field.attr ∧
      ∃ f, fieldOf (tables.schema c) b.attr = some f ∧ f.shape = .many none ∧ f.alts.all isCls = true ∧
        kindsAgree b.kinds f.alts = true := by
  have h := rows_fixed c.ctorIdx (by cases c <;> decide)
  rw [Cls.ofNat_ctorIdx] at h
  unfold rowOk at h
  simp only [hc, Bool.not_true, Bool.false_or, Bool.and_eq_true, decide_eq_true_eq] at h
  obtain ⟨⟨h1, h2⟩, h3⟩ := h
  refine ⟨h1, h2.1, h2.2, fun m hm b hb => ?_⟩
  have := List.all_eq_true.1 (List.all_eq_true.1 h3 m hm) b hb
  simp only [Bool.and_eq_true, Bool.not_eq_true', decide_eq_true_eq] at this
  obtain ⟨⟨⟨a1, a2⟩, a3⟩, a4⟩ := this
  refine ⟨a1, a2, a3, ?_⟩
  · split at a4
    · rename_i f hf
      simp only [Bool.and_eq_true, decide_eq_true_eq] at a4
      exact ⟨f, hf, a4.1.1, a4.1.2, a4.2⟩
    · cases a4

theorem chosen_kept {c : Cls} {m a : String} {x y : Val Cls} (h : choose c m x = .ok (a, y)) (d : Cls) :
    kept? d a = true := by
  refine grown_kept ?_ d
  unfold choose at h
  split at h
  · cases h
  · rename_i r hr
    split at h
    · cases h
    · rename_i p hp
      cases h
      obtain ⟨b, hb, hby⟩ := List.exists_of_findSome?_eq_some hp
      have ha : b.attr = a := by
        cases ht : b.take x with
        | none => rw [ht] at hby; cases hby
        | some z => rw [ht] at hby; cases hby; rfl
      refine List.mem_flatMap.2 ⟨c, List.mem_map.2 ⟨c.ctorIdx, List.mem_range.2 (by cases c <;> decide),
        Cls.ofNat_ctorIdx c⟩, List.mem_flatMap.2 ⟨r, List.mem_of_find?_eq_some hr, List.mem_map.2 ⟨b, hb, ha⟩⟩⟩

/-- What is added is of one of the classes the list may hold. -/
theorem chosen {c : Cls} (hc : isARElement c = true) {m a : String} {x y : Val Cls}
    (h : choose c m x = .ok (a, y)) : y = x ∧ a ≠ "name" ∧ a ∈ (Schema.ctor c).map Field.attr ∧
      ∃ f, fieldOf (tables.schema c) a = some f ∧ f.shape = .many none ∧
        ∃ d fs, x = .obj d fs ∧ .cls d ∈ f.alts := by
  unfold choose at h
  split at h
  · cases h
  · rename_i r hr
    split at h
    · cases h
    · rename_i p hp
      cases h
      obtain ⟨b, hb, hby⟩ := List.exists_of_findSome?_eq_some hp
      obtain ⟨b1, b2, b3, f, f1, f2, f3, f4⟩ := (row hc).2.2.2 r (List.mem_of_find?_eq_some hr) b hb
      unfold Append.Branch.take at hby
      rw [b1] at hby
      simp only [Bool.false_and] at hby
      rw [kindsAgree_holds f4] at hby
      split at hby
      · rename_i hf
        simp only [Option.map_some, Option.some.injEq, Prod.mk.injEq] at hby
        obtain ⟨rfl, rfl⟩ := hby
        refine ⟨rfl, b2, b3, f, f1, f2, ?_⟩
        obtain ⟨t, ht, htf⟩ := List.any_eq_true.1 hf
        have hcl := List.all_eq_true.1 f3 t ht
        cases t with
        | cls d =>
          cases x with
          | obj e fs =>
            simp only [fitsS, decide_eq_true_eq] at htf
            subst htf
            exact ⟨_, fs, rfl, ht⟩
          | _ => simp [fitsS] at htf
        | _ => simp [isCls] at hcl
      · cases hby

/-! ### It is well-formed -/

theorem fields_iff {s : List (Field Cls)} {fs : List (String × Val Cls)} : hasFields tables s fs = true ↔
    ∀ p ∈ fs, ∃ f, fieldOf s p.1 = some f ∧ hasField tables f p.2 = true := by
  induction fs with
  | nil => simp [hasFields]
  | cons p fs ih =>
    obtain ⟨k, v⟩ := p
    rw [hasFields_cons, Bool.and_eq_true, ih]
    simp only [List.mem_cons, forall_eq_or_imp]
    refine and_congr_left fun _ => ?_
    cases fieldOf s k with
    | none => simp
    | some f => simp

theorem get_mem {fs : List (String × Val Cls)} {k : String} {v : Val Cls} (h : dictGet fs k = some v) :
    (k, v) ∈ fs := by
  induction fs with
  | nil => cases h
  | cons p fs ih =>
    obtain ⟨j, w⟩ := p
    rw [dictGet] at h
    split at h
    · rename_i hj
      cases h
      subst hj
      simp
    · exact List.mem_cons_of_mem _ (ih h)

theorem mem_get {fs : List (String × Val Cls)} {k : String} (h : k ∈ fs.map (·.1)) : (dictGet fs k).isSome := by
  induction fs with
  | nil => simp at h
  | cons p fs ih =>
    obtain ⟨j, w⟩ := p
    rw [dictGet]
    split
    · rfl
    · rename_i hj
      simp only [List.map_cons, List.mem_cons] at h
      rcases h with h | h
      · exact absurd h.symm hj
      · exact ih h

theorem list_or_none {c : Cls} {fs : List (String × Val Cls)} (h : hasFields tables (tables.schema c) fs = true)
    {a : String} {f : Field Cls} (hf : fieldOf (tables.schema c) a = some f) (hs : f.shape = .many none) :
    dictGet fs a = none ∨ ∃ l, dictGet fs a = some (.list l) ∧ hasList tables f.alts l = true := by
  cases hg : dictGet fs a with
  | none => exact .inl rfl
  | some v =>
    obtain ⟨f', h1, h2⟩ := fields_iff.1 h _ (get_mem hg)
    rw [hf] at h1
    cases h1
    unfold hasField at h2
    rw [hs] at h2
    cases v with
    | list l =>
      simp only [Bool.and_eq_true] at h2
      exact .inr ⟨l, rfl, h2.2⟩
    | _ => cases h2

theorem plain_iff {fs : List (String × Val Cls)} : plainFields xmlAttrs fs = true ↔
    ∀ p ∈ fs, plainFields xmlAttrs [p] = true := by
  induction fs with
  | nil => simp [plainFields]
  | cons p fs ih =>
    obtain ⟨k, v⟩ := p
    simp only [List.mem_cons, forall_eq_or_imp, ← ih]
    simp only [plainFields, Bool.and_eq_true, and_true]

theorem plain_at {k : String} {l : List (Val Cls)} : plainFields xmlAttrs [(k, .list l)] = plainList xmlAttrs l := by
  simp [plainFields, plainVal]

theorem plain_list {l : List (Val Cls)} : plainList xmlAttrs l = true ↔ ∀ v ∈ l, plainVal xmlAttrs v = true := by
  induction l with
  | nil => simp [plainList]
  | cons v l ih => simp only [plainList, Bool.and_eq_true, ih, List.mem_cons, forall_eq_or_imp]

theorem has_list {alts : List (STy Cls)} {l : List (Val Cls)} : hasList tables alts l = true ↔
    ∀ v ∈ l, alts.any (hasS tables v) = true := by
  induction l with
  | nil => simp [hasList]
  | cons v l ih => simp only [hasList, Bool.and_eq_true, ih, List.mem_cons, forall_eq_or_imp]

theorem members_get (c : Cls) {fs : List (String × Val Cls)} {a : String} :
    (dictGet fs a = none → members (.obj c fs) a = []) ∧
    ∀ l, dictGet fs a = some (.list l) → members (.obj c fs) a = l := by
  constructor
  · intro h; simp only [members, h]
  · intro l h; simp only [members, h]

theorem withPart_eq (a : String) (y : Val Cls) (c : Cls) (fs : List (String × Val Cls)) :
    withPart a y (.obj c fs) = .obj c (pick ((Schema.ctor c).map Field.attr) fun k =>
      if k = a then some (.list (members (.obj c fs) a ++ [y])) else dictGet fs k) := by
  simp only [withPart]
  rw [← canon_pick]

theorem part_wf {c : Cls} (hc : isARElement c = true) {fs : List (String × Val Cls)}
    (hw : WellFormed c (.obj c fs)) {m a : String} {x y : Val Cls} (h : choose c m x = .ok (a, y))
    (hx : ∀ d gs, x = .obj d gs → WellFormed d x) : WellFormed c (withPart a y (.obj c fs)) := by
  obtain ⟨rfl, hna, hac, f, f1, f2, d, gs, rfl, hd⟩ := chosen hc h
  have hxw := hx d gs rfl
  have hattrs := (row hc).1
  obtain ⟨w1, w2⟩ := hw
  rw [withPart_eq]
  simp only [hasS, Bool.and_eq_true, decide_eq_true_eq] at w1
  obtain ⟨⟨-, w3⟩, w4⟩ := w1
  have hl := list_or_none w4 f1 f2
  have hmem : ∀ v ∈ members (.obj c fs) a, f.alts.any (hasS tables v) = true := by
    rcases hl with hl | ⟨l, hl, hh⟩
    · rw [(members_get c).1 hl]; simp
    · rw [(members_get c).2 l hl]; exact has_list.1 hh
  have hplain : ∀ v ∈ members (.obj c fs) a, plainVal xmlAttrs v = true := by
    rcases hl with hl | ⟨l, hl, hh⟩
    · rw [(members_get c).1 hl]; simp
    · rw [(members_get c).2 l hl]
      simp only [plainVal] at w2
      have := plain_iff.1 w2 _ (get_mem hl)
      rw [plain_at] at this
      exact plain_list.1 this
  constructor
  · simp only [hasS, Bool.and_eq_true, decide_eq_true_eq]
    refine ⟨⟨trivial, ?_⟩, ?_⟩
    · rw [pick_keys]
      unfold orderOk at w3 ⊢
      simp only [Bool.and_eq_true, decide_eq_true_eq, List.all_eq_true] at w3 ⊢
      have hin : ∀ k, ((if k = a then some (Val.list (members (.obj c fs) a ++ [.obj d gs]))
          else dictGet fs k).isSome = true) → k ∈ (tables.schema c).map Field.attr := by
        intro k hk
        split at hk
        · rename_i hka
          rw [hka]
          have := List.find?_some f1
          simp only [decide_eq_true_eq] at this
          exact List.mem_map.2 ⟨f, List.mem_of_find?_eq_some f1, this⟩
        · obtain ⟨v, hv⟩ := Option.isSome_iff_exists.1 hk
          obtain ⟨f', g1, -⟩ := fields_iff.1 w4 _ (get_mem hv)
          have := List.find?_some g1
          simp only [decide_eq_true_eq] at this
          exact List.mem_map.2 ⟨f', List.mem_of_find?_eq_some g1, this⟩
      refine ⟨?_, fun g hg => ?_⟩
      · rw [hattrs, List.filter_filter]
        refine List.filter_congr fun k hk => ?_
        rw [Bool.eq_iff_iff]
        simp only [List.mem_filter, Bool.and_eq_true, decide_eq_true_eq]
        constructor
        · intro hs
          exact ⟨⟨hk, hs⟩, hin k hs⟩
        · intro hs
          exact hs.1.2
      · have := w3.2 g hg
        simp only [Bool.or_eq_true, decide_eq_true_eq] at this ⊢
        refine this.imp_right fun hm => List.mem_filter.2 ⟨?_, ?_⟩
        · have : g.attr ∈ (tables.schema c).map Field.attr := List.mem_map.2 ⟨g, hg, rfl⟩
          rw [hattrs] at this
          exact (List.mem_filter.1 this).1
        · split
          · rfl
          · exact mem_get hm
    · refine fields_iff.2 fun p hp => ?_
      obtain ⟨k, v⟩ := p
      obtain ⟨-, hk⟩ := pick_mem hp
      split at hk
      · rename_i hka
        cases hk
        subst hka
        refine ⟨f, f1, ?_⟩
        simp only [hasField, f2, Bool.and_eq_true, maxOk]
        refine ⟨⟨by simp, trivial⟩, has_list.2 fun v hv => ?_⟩
        rcases List.mem_append.1 hv with hv | hv
        · exact hmem v hv
        · rw [List.mem_singleton.1 hv]
          exact List.any_eq_true.2 ⟨.cls d, hd, hxw.1⟩
      · exact fields_iff.1 w4 _ (get_mem hk)
  · simp only [plainVal]
    refine plain_iff.2 fun p hp => ?_
    obtain ⟨k, v⟩ := p
    obtain ⟨-, hk⟩ := pick_mem hp
    split at hk
    · cases hk
      rw [plain_at]
      refine plain_list.2 fun v hv => ?_
      rcases List.mem_append.1 hv with hv | hv
      · exact hplain v hv
      · rw [List.mem_singleton.1 hv]; exact hxw.2
    · simp only [plainVal] at w2
      exact plain_iff.1 w2 _ (get_mem hk)

theorem part_name {c : Cls} (hc : isARElement c = true) {fs : List (String × Val Cls)} {m a : String} {x y : Val Cls}
    (h : choose c m x = .ok (a, y)) : elemName (withPart a y (.obj c fs)) = elemName (.obj c fs) := by
  obtain ⟨-, hna, -⟩ := chosen hc h
  rw [withPart_eq]
  simp only [elemName, nameOf]
  rw [pick_get, if_pos (row hc).2.1, if_neg (fun e => hna e.symm)]

theorem areas_fields {c : Cls} (hc : c ≠ .RunnableEntity) {fs : List (String × Val Cls)} :
    areasNamedFields c fs = true ↔ ∀ p ∈ fs, areasNamed p.2 = true := by
  induction fs with
  | nil => simp [areasNamedFields]
  | cons p fs ih =>
    obtain ⟨k, v⟩ := p
    simp only [areasNamedFields, hc, false_and, if_false, Bool.and_eq_true, ih, List.mem_cons, forall_eq_or_imp]

theorem areas_list {l : List (Val Cls)} : areasNamedList l = true ↔ ∀ v ∈ l, areasNamed v = true := by
  induction l with
  | nil => simp [areasNamedList]
  | cons v l ih => simp only [areasNamedList, Bool.and_eq_true, ih, List.mem_cons, forall_eq_or_imp]

theorem part_areas {c : Cls} (hc : c ≠ .RunnableEntity) {fs : List (String × Val Cls)} {a : String} {y : Val Cls}
    (hy : areasNamed y = true) (h : areasNamed (.obj c fs) = true) :
    areasNamed (withPart a y (.obj c fs)) = true := by
  rw [withPart_eq]
  simp only [areasNamed] at h ⊢
  rw [areas_fields hc] at h ⊢
  rintro ⟨k, v⟩ hp
  obtain ⟨-, hk⟩ := pick_mem hp
  split at hk
  · cases hk
    simp only [areasNamed]
    refine areas_list.2 fun v hv => ?_
    rcases List.mem_append.1 hv with hv | hv
    · simp only [members] at hv
      split at hv
      · rename_i l hl
        have := h _ (get_mem hl)
        simp only [areasNamed] at this
        exact areas_list.1 this v hv
      · simp at hv
    · rw [List.mem_singleton.1 hv]; exact hy
  · exact h _ (get_mem hk)

theorem part_field {c : Cls} (hc : isARElement c = true) {fs : List (String × Val Cls)}
    (hw : WellFormed c (.obj c fs)) {m a : String} {x y : Val Cls} (h : choose c m x = .ok (a, y)) :
    Kept (.obj c fs) (withPart a y (.obj c fs)) := by
  obtain ⟨-, hna, hac, f, f1, f2, -⟩ := chosen hc h
  obtain ⟨w1, -⟩ := hw
  simp only [hasS, Bool.and_eq_true, decide_eq_true_eq] at w1
  have hl := list_or_none w1.2 f1 f2
  refine ⟨rfl, fun k => ?_⟩
  rw [withPart_eq]
  simp only [field, ← Connect.dictGet_lookup]
  rw [pick_get]
  by_cases hk : k = a
  · subst hk
    rw [if_pos hac, if_pos rfl]
    refine .inr ⟨members (.obj c fs) k, [y], ?_, rfl⟩
    rcases hl with hl | ⟨l, hl, -⟩
    · exact .inr ⟨hl, (members_get c).1 hl⟩
    · rw [(members_get c).2 l hl]; exact .inl hl
  · left
    rw [if_neg hk]
    split
    · rfl
    · rename_i hn
      cases hg : dictGet fs k with
      | none => rfl
      | some v =>
        exfalso
        obtain ⟨f', g1, -⟩ := fields_iff.1 w1.2 _ (get_mem hg)
        have h2 := List.find?_some g1
        simp only [decide_eq_true_eq] at h2
        have h3 : k ∈ (tables.schema c).map Field.attr := List.mem_map.2 ⟨f', List.mem_of_find?_eq_some g1, h2⟩
        rw [(row hc).1] at h3
        exact hn (List.mem_filter.1 h3).1

end Verif.Codec.History
