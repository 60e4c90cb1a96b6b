import Verif.Codec.AppendSpec
import Verif.Codec.Map
/-
Lemmas for C60.
-/
set_option linter.unusedSimpArgs false
namespace Verif.Codec.Append
open Verif.Py Verif.Names Verif.Ref Verif.Codec Verif.Codec.Rename Verif.Codec.AppendSpec

/-! ### The tables -/

/-- The types that occur in lists of parts. -/
def plainAlt : STy Cls → Bool
  | .str | .int | .numFloat | .radix | .ref _ | .cls _ => true
  | _ => false

def Kind.isRef : Kind → Option String
  | .ref r => some r
  | _ => none

def altRef : STy Cls → Option String
  | .ref r => some r
  | _ => none

def Kind.covers (c : Cls) : Kind → Bool
  | .inst cs => cs.any fun d => d ∈ mro c
  | _ => false

/-- The same values pass `isinstance` and the constructor's type test. -/
def kindsAgree (ks : List Kind) (alts : List (STy Cls)) : Bool :=
  alts.all plainAlt &&
  ((List.range 186).all fun n =>
    ks.any (Kind.covers (Cls.ofNat n)) == alts.any fun a => decide (a = .cls (Cls.ofNat n))) &&
  ((ks.any fun k => decide (k = .str)) == alts.any fun a => decide (a = .str)) &&
  ((ks.any fun k => decide (k = .num)) == alts.any fun a => decide (a = .numFloat)) &&
  ((alts.any fun a => decide (a = .numFloat)) || !alts.any fun a => decide (a = .int)) &&
  ((ks.any fun k => decide (k = .numval)) == alts.any fun a => decide (a = .radix)) &&
  decide (ks.filterMap Kind.isRef = alts.filterMap altRef)

theorem any_ref_kinds (ks : List Kind) (r : RefObj) : (ks.any fun k => k.holds (.ref r)) =
    (ks.filterMap Kind.isRef).any fun q => r.cls = q := by
  induction ks with
  | nil => rfl
  | cons k ks ih =>
    rw [List.any_cons, ih]
    cases k <;> simp [Kind.holds, Kind.isRef]

theorem any_ref_alts (alts : List (STy Cls)) (r : RefObj) (h : alts.all plainAlt = true) :
    (alts.any fun a => fitsS a (.ref r : Val Cls)) =
    (alts.filterMap altRef).any fun q => r.cls = q := by
  induction alts with
  | nil => rfl
  | cons a alts ih =>
    simp only [List.all_cons, Bool.and_eq_true] at h
    have ih := ih h.2
    have h := h.1
    rw [List.any_cons, ih]
    cases a with
    | ref q => simp [fitsS, altRef]
    | _ => first | (simp [plainAlt] at h; done) | (simp [fitsS, altRef]; done)

theorem any_congr' {α : Type} {l : List α} {p q : α → Bool} (h : ∀ x ∈ l, p x = q x) :
    l.any p = l.any q := by
  induction l with
  | nil => rfl
  | cons a l ih => simp only [List.any_cons, h a (by simp), ih (fun x hx => h x (by simp [hx]))]

theorem any_false {α : Type} (l : List α) : (l.any fun _ => false) = false := by
  induction l with
  | nil => rfl
  | cons a l ih => rw [List.any_cons, ih]; rfl

theorem fits_str {a : STy Cls} (s : String) (h : plainAlt a = true) :
    fitsS a (.str s) = decide (a = .str) := by
  cases a <;> first | (simp [plainAlt] at h; done) | (simp [fitsS]; done)

theorem fits_numval {a : STy Cls} (s) (h : plainAlt a = true) :
    fitsS a (.numval s) = decide (a = .radix) := by
  cases a <;> first | (simp [plainAlt] at h; done) | (simp [fitsS]; done)

theorem fits_obj {a : STy Cls} (c fs) (h : plainAlt a = true) :
    fitsS a (.obj c fs) = decide (a = .cls c) := by
  cases a <;> first | (simp [plainAlt] at h; done) | (simp [fitsS]; done)

theorem fits_num {a : STy Cls} (n) (h : plainAlt a = true) (hf : fitsS a (.num n) = true) :
    a = .int ∨ a = .numFloat := by
  cases a <;> first | (simp [plainAlt] at h; done) | (simp [fitsS] at hf; done) | simp

theorem fits_other {a : STy Cls} (v : Val Cls) (h : plainAlt a = true)
    (hv : match v with | .bool _ | .enum _ | .limit _ _ | .list _ => True | _ => False) :
    fitsS a v = false := by
  cases a <;> first | (simp [plainAlt] at h; done) | skip
  all_goals cases v <;> first | rfl | exact hv.elim

theorem holds_other (k : Kind) (v : Val Cls)
    (hv : match v with | .bool _ | .enum _ | .limit _ _ | .list _ => True | _ => False) :
    k.holds v = false := by
  cases k <;> cases v <;> first | rfl | exact hv.elim

theorem kindsAgree_holds {ks : List Kind} {alts : List (STy Cls)} (h : kindsAgree ks alts = true)
    (x : Val Cls) : (ks.any fun k => k.holds x) = alts.any fun a => fitsS a x := by
  simp only [kindsAgree, Bool.and_eq_true, beq_iff_eq, decide_eq_true_eq] at h
  obtain ⟨⟨⟨⟨⟨⟨h1, h2⟩, h3⟩, h4⟩, h5⟩, h6⟩, h7⟩ := h
  have h1' := List.all_eq_true.1 h1
  have other : (match x with | .bool _ | .enum _ | .limit _ _ | .list _ => True | _ => False) →
      (ks.any fun k => k.holds x) = alts.any fun a => fitsS a x := by
    intro hv
    rw [any_congr' (q := fun _ => false) (fun k _ => holds_other k x hv),
      any_congr' (l := alts) (q := fun _ => false) (fun a hm => fits_other x (h1' a hm) hv),
      any_false, any_false]
  cases x with
  | str s =>
    rw [any_congr' (l := alts) (fun a ha => fits_str s (h1' a ha)), ← h3]
    exact any_congr' fun k _ => by cases k <;> simp [Kind.holds]
  | num n =>
    rw [any_congr' (q := fun k => decide (k = Kind.num)) (fun k _ => by cases k <;> simp [Kind.holds]),
      h4, Bool.eq_iff_iff]
    constructor
    · intro ha
      obtain ⟨a, ha, he⟩ := List.any_eq_true.1 ha
      rw [decide_eq_true_eq] at he
      exact List.any_eq_true.2 ⟨a, ha, by rw [he]; rfl⟩
    · intro ha
      obtain ⟨a, ha, hf⟩ := List.any_eq_true.1 ha
      rcases fits_num n (h1' a ha) hf with rfl | rfl
      · have : (alts.any fun a => decide (a = .int)) = true :=
          List.any_eq_true.2 ⟨_, ha, by simp⟩
        rw [this] at h5
        simpa using h5
      · exact List.any_eq_true.2 ⟨_, ha, by simp⟩
  | numval n =>
    rw [any_congr' (l := alts) (fun a ha => fits_numval n (h1' a ha)), ← h6]
    exact any_congr' fun k _ => by cases k <;> simp [Kind.holds]
  | ref r => rw [any_ref_kinds, any_ref_alts alts r h1, h7]
  | obj c fs =>
    have := List.all_eq_true.1 h2 c.ctorIdx (by rw [List.mem_range]; cases c <;> decide)
    rw [Cls.ofNat_ctorIdx, beq_iff_eq] at this
    rw [any_congr' (l := alts) (fun a ha => fits_obj c fs (h1' a ha)), ← this]
    exact any_congr' fun k _ => by cases k <;> rfl
  | bool b => exact other trivial
  | enum b => exact other trivial
  | limit b _ => exact other trivial
  | list b => exact other trivial

/-- A branch and a constructor argument. -/
def branchOk (c : Cls) (m : String) (b : Branch) (p : String) : Bool :=
  (Schema.ctor c).any fun f => f.param = p && f.attr = b.attr && decide (f.shape ≠ .one) && !f.req &&
    if m ∈ areaMethods then
      b.wraps && decide (b.kinds = [.inst [.ExclusiveAreaRefConditional]]) &&
        decide (f.alts = [.cls .ExclusiveAreaRefConditional])
    else !b.wraps && kindsAgree b.kinds f.alts

def branchesOk (c : Cls) (m : String) : List Branch → List String → Bool
  | [], [] => true
  | b :: bs, p :: ps => branchOk c m b p && branchesOk c m bs ps
  | _, _ => false

def classOk (c : Cls) : Bool :=
  decide ((methods c).map Method.name = (partMethods c).map Prod.fst) &&
  ((methods c).zip (partMethods c)).all (fun mp => branchesOk c mp.1.name mp.1.branches mp.2.2) &&
  (methods c).all (fun m => m.error = .typeError || m.error = .assertionError) &&
  decide (((Schema.ctor c).map Field.param).Nodup) && decide (((Schema.ctor c).map Field.attr).Nodup)

theorem classes_ok (c : Cls) : classOk c = true := by
  have h : ∀ n < 186, classOk (Cls.ofNat n) = true := by decide +kernel
  have := h c.ctorIdx (by cases c <;> decide)
  rwa [Cls.ofNat_ctorIdx] at this

/-! ### Attributes in order -/

theorem dictGet_canon {s : List (Field Cls)} (hn : (s.map Field.attr).Nodup)
    (g : Field Cls → Option (Val Cls)) {f : Field Cls} (hf : f ∈ s) :
    dictGet (canon s g) f.attr = g f := by
  induction s with
  | nil => simp at hf
  | cons e s ih =>
    simp only [List.map_cons, List.nodup_cons] at hn
    have absent : dictGet (canon s g) e.attr = none := by
      rw [dictGet_none]
      intro hm
      obtain ⟨kv, hkv, he⟩ := List.mem_map.1 hm
      obtain ⟨f', hf', hg⟩ := List.mem_filterMap.1 hkv
      obtain ⟨v, -, rfl⟩ := Option.map_eq_some_iff.1 hg
      exact hn.1 (he ▸ List.mem_map_of_mem hf')
    simp only [canon, List.filterMap_cons]
    rcases List.mem_cons.1 hf with rfl | hf
    · cases hg : g f with
      | none => exact absent
      | some v => simp only [Option.map_some, dictGet, if_true]
    · have hne : ¬ e.attr = f.attr := fun he => hn.1 (he ▸ List.mem_map_of_mem hf)
      cases hg : g e with
      | none => exact ih hn.2 hf
      | some v =>
        simp only [Option.map_some, dictGet, if_neg hne]
        exact ih hn.2 hf

/-- What becomes of an attribute. -/
def ren (D : Digits) (c : Cls) (a : String) (v : Val Cls) : Option (Val Cls) :=
  if c = .RunnableEntity ∧ a ∈ renamed then
    match v with
    | .list vs => (addAll D [] vs).map .list
    | v => some v
  else some v

def renTop (D : Digits) (c : Cls) (fs : List (String × Val Cls)) : Option (List (String × Val Cls)) :=
  if c = .RunnableEntity then renameFields D fs else some fs

theorem renTop_nil (D : Digits) (c : Cls) : renTop D c [] = some [] := by
  simp [renTop, renameFields]

theorem renTop_cons (D : Digits) (c : Cls) (k : String) (v : Val Cls)
    (rest : List (String × Val Cls)) : renTop D c ((k, v) :: rest) =
      match ren D c k v, renTop D c rest with
      | some v', some rest' => some ((k, v') :: rest')
      | _, _ => none := by
  by_cases hc : c = .RunnableEntity
  · subst hc
    by_cases hk : k ∈ renamed
    · cases v <;> simp only [renTop, ren, hk, and_self, if_true, renameFields] <;> rfl
    · simp only [renTop, ren, hk, and_false, if_true, if_false, renameFields]
      rfl
  · simp only [renTop, ren, hc, false_and, if_false]

/-- All attributes can be given their names. -/
def AllRen (D : Digits) (c : Cls) (s : List (Field Cls)) (g : Field Cls → Option (Val Cls)) : Prop :=
  ∀ f ∈ s, ∀ v, g f = some v → ren D c f.attr v ≠ none

theorem renTop_canon (D : Digits) (c : Cls) (s : List (Field Cls)) (g : Field Cls → Option (Val Cls))
    (h : AllRen D c s g) :
    renTop D c (canon s g) = some (canon s fun f => (g f).bind (ren D c f.attr)) := by
  induction s with
  | nil => exact renTop_nil D c
  | cons f s ih =>
    have ih := ih fun e he => h e (by simp [he])
    simp only [canon, List.filterMap_cons] at ih ⊢
    cases hg : g f with
    | none => simpa only [Option.map_none, Option.bind_none] using ih
    | some v =>
      have hr := h f (by simp) v hg
      simp only [Option.map_some, Option.bind_some]
      rw [renTop_cons, ih]
      cases hv : ren D c f.attr v with
      | none => exact absurd hv hr
      | some v' => rfl

theorem renTop_none (D : Digits) (c : Cls) (s : List (Field Cls)) (g : Field Cls → Option (Val Cls))
    (h : ¬ AllRen D c s g) : renTop D c (canon s g) = none := by
  induction s with
  | nil => exact absurd (fun _ hf => by simp at hf) h
  | cons f s ih =>
    simp only [canon, List.filterMap_cons] at ih ⊢
    by_cases hs : AllRen D c s g
    · have : ∃ v, g f = some v ∧ ren D c f.attr v = none := by
        apply Classical.byContradiction
        intro hno
        apply h
        intro e he v hv
        rcases List.mem_cons.1 he with rfl | he
        · exact fun hr => hno ⟨v, hv, hr⟩
        · exact hs e he v hv
      obtain ⟨v, hv, hr⟩ := this
      rw [hv]
      simp only [Option.map_some]
      rw [renTop_cons, hr]
    · have ih := ih hs
      cases hg : g f with
      | none => simpa only [Option.map_none] using ih
      | some v =>
        simp only [Option.map_some]
        rw [renTop_cons, ih]
        cases ren D c f.attr v <;> rfl

/-! ### Constructors -/

def arg (data : Data Cls) (f : Field Cls) : Option (Val Cls) := normal ((lastOf data f.param).getD none)

/-- Arguments the constructor takes. -/
structure Valid (c : Cls) (data : Data Cls) : Prop where
  known : ∀ p, lastOf data p ≠ none → ∃ f ∈ Schema.ctor c, f.param = p
  there : ∀ f ∈ Schema.ctor c, f.req = true → lastOf data f.param ≠ none
  fit : ∀ f ∈ Schema.ctor c, argOk data f = true

theorem known_iff (s : List (Field Cls)) (data : Data Cls) :
    (data.all fun kv => s.any fun f => f.param = kv.1) = true ↔
      ∀ p, lastOf data p ≠ none → ∃ f ∈ s, f.param = p := by
  simp only [List.all_eq_true, List.any_eq_true, decide_eq_true_eq]
  constructor
  · intro h p hp
    cases hl : lastOf data p with
    | none => exact absurd hl hp
    | some x => exact h _ (lastOf_mem hl)
  · intro h kv hkv
    apply h
    intro hn
    exact lastOf_none hn kv hkv rfl

theorem build_valid {c : Cls} {data : Data Cls} (h : Valid c data) :
    build tables c data = .ok (.obj c (canon (Schema.ctor c) (arg data))) := by
  have h1 := (known_iff (Schema.ctor c) data).2 h.known
  have h2 : (Schema.ctor c).any (fun f => f.req && (lastOf data f.param).isNone) = false := by
    rw [List.any_eq_false]
    intro f hf
    have := h.there f hf
    cases hr : f.req with
    | false => simp
    | true =>
      cases hl : lastOf data f.param with
      | none => exact absurd hl (this hr)
      | some x => simp
  have h3 : (Schema.ctor c).all (argOk data) = true := List.all_eq_true.2 h.fit
  have h1' : ¬ (data.all fun kv => (Schema.ctor c).any fun f => f.param = kv.1) = false := by
    rw [h1]; simp
  have h2' : ¬ (Schema.ctor c).any (fun f => f.req && (lastOf data f.param).isNone) = true := by
    rw [h2]; simp
  have h3' : ¬ (Schema.ctor c).all (argOk data) = false := by rw [h3]; simp
  show buildWith (Schema.ctor c) c data = _
  unfold buildWith
  rw [if_neg h1', if_neg h2', if_neg h3']
  rfl

theorem build_invalid {c : Cls} {data : Data Cls} (h : ¬ Valid c data) :
    ∃ e, build tables c data = .error e := by
  show ∃ e, buildWith (Schema.ctor c) c data = .error e
  unfold buildWith
  split
  · exact ⟨_, rfl⟩
  · rename_i h1
    split
    · exact ⟨_, rfl⟩
    · rename_i h2
      split
      · exact ⟨_, rfl⟩
      · rename_i h3
        refine absurd ⟨(known_iff _ _).1 (by simpa using h1), ?_, ?_⟩ h
        · intro f hf hr hn
          apply h2
          rw [List.any_eq_true]
          exact ⟨f, hf, by simp [hr, hn]⟩
        · intro f hf
          cases ha : argOk data f with
          | true => rfl
          | false =>
            refine absurd ?_ h3
            rw [List.all_eq_false]
            exact ⟨f, hf, by simp [ha]⟩

theorem construct_valid {c : Cls} {data : Data Cls} (D : Digits) (h : Valid c data) :
    construct D c data =
      (renTop D c (canon (Schema.ctor c) (arg data))).map fun fs => .ok (.obj c fs) := by
  simp only [construct, build_valid h]
  rfl

theorem valid_of_ok {D : Digits} {c : Cls} {data : Data Cls} {r : Option (Val Cls)}
    (h : construct D c data = r.map .ok) : Valid c data := by
  apply Classical.byContradiction
  intro hv
  obtain ⟨e, he⟩ := build_invalid hv
  simp only [construct, he] at h
  cases r <;> simp at h

/-! ### Which branch is taken -/

theorem key_inj {α : Type} {g : α → String} : ∀ {s : List α}, (s.map g).Nodup →
    ∀ {f f' : α}, f ∈ s → f' ∈ s → g f = g f' → f = f'
  | [], _, _, _, h, _, _ => by simp at h
  | e :: s, hn, f, f', h, h', he => by
    simp only [List.map_cons, List.nodup_cons] at hn
    rcases List.mem_cons.1 h with h | h <;> rcases List.mem_cons.1 h' with h' | h'
    · rw [h, h']
    · exact absurd (h ▸ he ▸ List.mem_map_of_mem h') hn.1
    · exact absurd (h' ▸ he ▸ List.mem_map_of_mem h) hn.1
    · exact key_inj hn.2 h h' he

theorem param_inj {c : Cls} {f f' : Field Cls} (h : f ∈ Schema.ctor c) (h' : f' ∈ Schema.ctor c)
    (he : f.param = f'.param) : f = f' := by
  have := classes_ok c
  simp only [classOk, Bool.and_eq_true, decide_eq_true_eq] at this
  exact key_inj this.1.2 h h' he

theorem attrs_nodup (c : Cls) : ((Schema.ctor c).map Field.attr).Nodup := by
  have := classes_ok c
  simp only [classOk, Bool.and_eq_true, decide_eq_true_eq] at this
  exact this.2

theorem accepts_iff {c : Cls} {f : Field Cls} (hf : f ∈ Schema.ctor c) (y : Val Cls) :
    accepts c f.param y = f.alts.any fun a => fitsS a y := by
  rw [Bool.eq_iff_iff]
  simp only [accepts, List.any_eq_true, Bool.and_eq_true, decide_eq_true_eq]
  constructor
  · rintro ⟨f', hf', he, hy⟩
    rwa [param_inj hf' hf he] at hy
  · intro hy
    exact ⟨f, hf, rfl, hy⟩

theorem area_agree : kindsAgree [.inst [.ExclusiveAreaRefConditional]]
    [.cls .ExclusiveAreaRefConditional] = true := by decide +kernel

theorem take_area {b : Branch} (hw : b.wraps = true)
    (hk : b.kinds = [.inst [.ExclusiveAreaRefConditional]]) (x : Val Cls) :
    b.take x = if fitsS (.cls .ExclusiveAreaRefConditional) (areaEntry x) then some (areaEntry x)
      else none := by
  have hx := kindsAgree_holds area_agree x
  simp only [Branch.take, hw, hk, hx, List.any_cons, List.any_nil, Bool.or_false, Bool.true_and]
  cases x with
  | str s => simp [fitsS, Kind.holds, areaEntry, wrap]
  | ref r =>
    by_cases hr : r.cls = "ExclusiveAreaRef"
    · simp [fitsS, Kind.holds, areaEntry, wrap, hr]
    · simp [fitsS, Kind.holds, areaEntry, wrap, hr]
  | _ => simp [fitsS, Kind.holds, areaEntry, wrap]

/-- What `branchOk` says. -/
theorem branch_spec {c : Cls} {m : String} {b : Branch} {p : String} (h : branchOk c m b p = true) :
    ∃ f ∈ Schema.ctor c, f.param = p ∧ f.attr = b.attr ∧ f.shape ≠ .one ∧ f.req = false ∧
      ∀ x, b.take x = if accepts c p (meant m x) then some (meant m x) else none := by
  simp only [branchOk, List.any_eq_true, Bool.and_eq_true, decide_eq_true_eq,
    Bool.not_eq_true'] at h
  obtain ⟨f, hf, ⟨⟨⟨rfl, ha⟩, hs⟩, hr⟩, hk⟩ := h
  refine ⟨f, hf, rfl, ha, hs, hr, fun x => ?_⟩
  rw [accepts_iff hf]
  by_cases hm : m ∈ areaMethods
  · simp only [hm, if_true, Bool.and_eq_true, decide_eq_true_eq] at hk
    rw [take_area hk.1.1 hk.1.2, hk.2]
    simp only [meant, hm, if_true, List.any_cons, List.any_nil, Bool.or_false]
  · simp only [hm, if_false, Bool.and_eq_true, Bool.not_eq_true'] at hk
    simp only [Branch.take, hk.1, kindsAgree_holds hk.2, meant, hm, if_false, Bool.false_and]
    rfl

theorem branches_spec {c : Cls} {m : String} (x : Val Cls) : ∀ (bs : List Branch) (ps : List String),
    branchesOk c m bs ps = true →
    (∀ p, (ps.find? fun p => accepts c p (meant m x)) = some p →
      ∃ f ∈ Schema.ctor c, f.param = p ∧ f.shape ≠ .one ∧ f.req = false ∧ p ∈ ps ∧
        accepts c p (meant m x) = true ∧
        (bs.findSome? fun b => (b.take x).map fun y => (b.attr, y)) = some (f.attr, meant m x)) ∧
    ((ps.find? fun p => accepts c p (meant m x)) = none →
      (bs.findSome? fun b => (b.take x).map fun y => (b.attr, y)) = none)
  | [], [], _ => by simp
  | [], _ :: _, h => by simp [branchesOk] at h
  | _ :: _, [], h => by simp [branchesOk] at h
  | b :: bs, p :: ps, h => by
    simp only [branchesOk, Bool.and_eq_true] at h
    obtain ⟨f, hf, hp, ha, hs, hr, ht⟩ := branch_spec h.1
    obtain ⟨ih1, ih2⟩ := branches_spec x bs ps h.2
    have ht := ht x
    cases hx : accepts c p (meant m x) with
    | true =>
      rw [hx] at ht
      simp only [if_true] at ht
      constructor
      · intro q hq
        rw [List.find?_cons, hx] at hq
        injection hq with hq
        subst hq
        refine ⟨f, hf, hp, hs, hr, by simp, hx, ?_⟩
        rw [List.findSome?_cons, ht, ha]
        rfl
      · intro hq
        rw [List.find?_cons, hx] at hq
        simp at hq
    | false =>
      rw [hx] at ht
      simp only [Bool.false_eq_true, if_false] at ht
      rw [List.find?_cons, hx, List.findSome?_cons, ht]
      simp only [Option.map_none]
      constructor
      · intro q hq
        obtain ⟨f, h1, h2, h3, h4, h5, h6⟩ := ih1 q hq
        exact ⟨f, h1, h2, h3, h4, by simp [h5], h6⟩
      · exact ih2

theorem find_both {m : String} : ∀ (ms : List Method) (ps : List (String × List String)) (c : Cls),
    ms.map Method.name = ps.map Prod.fst →
    ((ms.zip ps).all fun mp => branchesOk c mp.1.name mp.1.branches mp.2.2) = true →
    (∀ q, (ps.find? fun r => r.1 = m) = some q → ∃ r ∈ ms, (ms.find? fun r => r.name = m) = some r ∧
      branchesOk c m r.branches q.2 = true)
  | [], [], _, _, _ => by simp
  | [], _ :: _, _, h, _ => by simp at h
  | _ :: _, [], _, h, _ => by simp at h
  | r :: ms, p :: ps, c, h, hb => by
    simp only [List.map_cons, List.cons.injEq] at h
    simp only [List.zip_cons_cons, List.all_cons, Bool.and_eq_true] at hb
    intro q hq
    rw [List.find?_cons] at hq
    by_cases hm : p.1 = m
    · simp only [hm, decide_true] at hq
      injection hq with hq
      subst hq
      have hr : r.name = m := h.1.trans hm
      refine ⟨r, by simp, ?_, hr ▸ hb.1⟩
      rw [List.find?_cons]
      simp only [hr, decide_true]
    · simp only [hm, decide_false] at hq
      obtain ⟨r', h1, h2, h3⟩ := find_both ms ps c h.2 hb.2 q hq
      refine ⟨r', by simp [h1], ?_, h3⟩
      have hr : ¬ r.name = m := fun e => hm (h.1.symm.trans e)
      rw [List.find?_cons]
      simp only [hr, decide_false]
      exact h2

theorem add_part {c : Cls} {m : String} {x y : Val Cls} {p : String}
    (h : part c m x = some (p, y)) :
    ∃ f ∈ Schema.ctor c, f.param = p ∧ f.shape ≠ .one ∧ f.req = false ∧ p ∈ lists c ∧
      (f.alts.any fun a => fitsS a y) = true ∧
      ∀ D fs, add D (.obj c fs) m x = (addTo D c fs f.attr y).map .ok := by
  have hc := classes_ok c
  simp only [classOk, Bool.and_eq_true, decide_eq_true_eq] at hc
  simp only [part] at h
  cases hq : (partMethods c).find? fun r => r.1 = m with
  | none => simp [hq] at h
  | some q =>
    simp only [hq, Option.map_eq_some_iff, Prod.mk.injEq] at h
    obtain ⟨p', hp, rfl, rfl⟩ := h
    obtain ⟨r, -, hr, hb⟩ := find_both _ _ c hc.1.1.1.1 hc.1.1.1.2 q hq
    obtain ⟨f, h1, h2, h3, h4, h5, h6, h7⟩ := (branches_spec x _ _ hb).1 p' hp
    refine ⟨f, h1, h2, h3, h4, ?_, ?_, fun D fs => ?_⟩
    · exact List.mem_flatMap.2 ⟨q, List.mem_of_find?_eq_some hq, h5⟩
    · rw [← accepts_iff h1, h2]; exact h6
    · simp only [add, hr, h7]

theorem add_no_part {c : Cls} {m : String} {x : Val Cls} (hm : m ∈ (partMethods c).map Prod.fst)
    (h : part c m x = none) :
    ∃ e, (e = .typeError ∨ e = .assertionError) ∧ ∀ D fs, add D (.obj c fs) m x = some (.error e) := by
  have hc := classes_ok c
  simp only [classOk, Bool.and_eq_true, decide_eq_true_eq] at hc
  simp only [part] at h
  cases hq : (partMethods c).find? fun r => r.1 = m with
  | none =>
    obtain ⟨r, hr, he⟩ := List.mem_map.1 hm
    have := List.find?_eq_none.1 hq r hr
    simp [he] at this
  | some q =>
    simp only [hq, Option.map_eq_none_iff] at h
    obtain ⟨r, hm, hr, hb⟩ := find_both _ _ c hc.1.1.1.1 hc.1.1.1.2 q hq
    have h7 := (branches_spec x _ _ hb).2 h
    have he := List.all_eq_true.1 hc.1.1.2 r hm
    simp only [Bool.or_eq_true, decide_eq_true_eq] at he
    exact ⟨r.error, he, fun D fs => by simp only [add, hr, h7]⟩

/-! ### One call -/

theorem addAll_snoc (D : Digits) (y : Val Cls) : ∀ (vs us : List (Val Cls)),
    addAll D us (vs ++ [y]) = (addAll D us vs).bind fun w => addNamed D w y
  | [], us => by
    simp only [List.nil_append, addAll, Option.bind_some]
    cases addNamed D us y <;> rfl
  | v :: vs, us => by
    simp only [List.cons_append, addAll]
    cases addNamed D us v with
    | none => rfl
    | some w => exact addAll_snoc D y vs w

theorem canon_congr {s : List (Field Cls)} {g g' : Field Cls → Option (Val Cls)}
    (h : ∀ f ∈ s, g f = g' f) : canon s g = canon s g' := by
  induction s with
  | nil => rfl
  | cons f s ih =>
    simp only [canon, List.filterMap_cons] at ih ⊢
    rw [h f (by simp), ih fun e he => h e (by simp [he])]

theorem arg_given {c : Cls} {data : Data Cls} (hv : Valid c data) {f : Field Cls}
    (hf : f ∈ Schema.ctor c) (hs : f.shape ≠ .one) :
    arg data f = normal (some (.list (given data f.param))) ∧
      ∀ v ∈ given data f.param, (f.alts.any fun a => fitsS a v) = true := by
  have h := hv.fit f hf
  simp only [argOk, arg, given] at h ⊢
  cases hl : lastOf data f.param with
  | none => exact ⟨rfl, by simp⟩
  | some o =>
    cases o with
    | none => exact ⟨rfl, by simp⟩
    | some v =>
      rw [hl] at h
      cases v with
      | list vs =>
        refine ⟨rfl, ?_⟩
        cases vs with
        | nil => simp
        | cons v vs =>
          simp only [Option.getD_some, normal, fits, Bool.and_eq_true, List.all_eq_true] at h
          exact h.2
      | _ => simp [normal, fits, hs] at h

theorem valid_extend {c : Cls} {data data2 : Data Cls} {f : Field Cls} (hf : f ∈ Schema.ctor c)
    (hs : f.shape ≠ .one) (hr : f.req = false) (hv : Valid c data) {ws : List (Val Cls)}
    (hy : ∀ y ∈ ws, (f.alts.any fun a => fitsS a y) = true)
    (hp : lastOf data2 f.param = some (some (.list ws)))
    (ho : ∀ q, q ≠ f.param → lastOf data2 q = lastOf data q) : Valid c data2 := by
  refine ⟨fun p hn => ?_, fun e he hq => ?_, fun e he => ?_⟩
  · by_cases hpf : p = f.param
    · exact ⟨f, hf, hpf.symm⟩
    · rw [ho p hpf] at hn
      exact hv.known p hn
  · by_cases hpf : e.param = f.param
    · rw [param_inj he hf hpf, hr] at hq
      cases hq
    · rw [ho _ hpf]
      exact hv.there e he hq
  · by_cases hpf : e.param = f.param
    · rw [param_inj he hf hpf]
      simp only [argOk, hp, Option.getD_some]
      cases ws with
      | nil => rfl
      | cons w ws =>
        simp only [normal, fits, Bool.and_eq_true, List.all_eq_true, decide_eq_true_eq]
        exact ⟨hs, hy⟩
    · have := hv.fit e he
      simp only [argOk, ho _ hpf] at this ⊢
      exact this

theorem step (D : Digits) {c : Cls} {data data2 : Data Cls} {f : Field Cls} (hf : f ∈ Schema.ctor c)
    (hs : f.shape ≠ .one) (hr : f.req = false) {y : Val Cls}
    (hy : (f.alts.any fun a => fitsS a y) = true) {o : Val Cls}
    (h : construct D c data = some (.ok o))
    (hp : lastOf data2 f.param = some (some (.list (given data f.param ++ [y]))))
    (ho : ∀ q, q ≠ f.param → lastOf data2 q = lastOf data q) :
    ∃ fs, o = .obj c fs ∧ Valid c data2 ∧ construct D c data2 = (addTo D c fs f.attr y).map .ok := by
  have hv : Valid c data := valid_of_ok (r := some o) h
  obtain ⟨hg, hall⟩ := arg_given hv hf hs
  have hv2 : Valid c data2 := valid_extend hf hs hr hv (fun z hz => by
    rcases List.mem_append.1 hz with hz | hz
    · exact hall z hz
    · rw [List.mem_singleton.1 hz]; exact hy) hp ho
  rw [construct_valid D hv] at h
  have har : AllRen D c (Schema.ctor c) (arg data) := Classical.byContradiction fun har => by
    rw [renTop_none D c _ _ har] at h; simp at h
  rw [renTop_canon D c _ _ har] at h
  simp only [Option.map_some, Option.some.injEq, Except.ok.injEq] at h
  refine ⟨_, h.symm, hv2, ?_⟩
  have hget : ∀ e ∈ Schema.ctor c, dictGet (canon (Schema.ctor c)
      fun f => (arg data f).bind (ren D c f.attr)) e.attr = (arg data e).bind (ren D c e.attr) :=
    fun e he => dictGet_canon (attrs_nodup c) _ he
  generalize hfs : canon (Schema.ctor c) (fun f => (arg data f).bind (ren D c f.attr)) = fs at hget
  have harg2 : arg data2 f = some (.list (given data f.param ++ [y])) := by
    simp only [arg, hp, Option.getD_some]
    cases given data f.param <;> rfl
  have hargo : ∀ e ∈ Schema.ctor c, e ≠ f → arg data2 e = arg data e := by
    intro e he hne
    have : e.param ≠ f.param := fun hpe => hne (param_inj he hf hpe)
    simp only [arg, ho _ this]
  -- the list after the call
  have hE : ren D c f.attr (.list (given data f.param ++ [y])) =
      (if c = .RunnableEntity ∧ f.attr ∈ renamed then
        addNamed D (match dictGet fs f.attr with | some (.list vs) => vs | _ => []) y
      else some ((match dictGet fs f.attr with | some (.list vs) => vs | _ => []) ++ [y])).map
        Val.list := by
    rw [hget f hf, hg]
    by_cases hc : c = .RunnableEntity ∧ f.attr ∈ renamed
    · simp only [ren, if_pos hc, addAll_snoc]
      cases hvs : given data f.param with
      | nil => simp only [normal, Option.bind_none, addAll, Option.bind_some]
      | cons v vs =>
        have hne := har f hf (.list (v :: vs)) (by rw [hg, hvs]; rfl)
        simp only [ren, if_pos hc] at hne
        simp only [normal, Option.bind_some]
        cases hw : addAll D [] (v :: vs) with
        | none => rw [hw] at hne; simp at hne
        | some w => simp only [ren, if_pos hc, hw, Option.map_some, Option.bind_some]
    · simp only [ren, if_neg hc]
      cases hvs : given data f.param with
      | nil => simp only [normal, Option.bind_none, Option.map_some]
      | cons v vs => simp only [normal, Option.bind_some, ren, if_neg hc, Option.map_some]
  rw [construct_valid D hv2]
  simp only [addTo]
  generalize (if c = .RunnableEntity ∧ f.attr ∈ renamed then
        addNamed D (match dictGet fs f.attr with | some (.list vs) => vs | _ => []) y
      else some ((match dictGet fs f.attr with | some (.list vs) => vs | _ => []) ++ [y])) = E at hE
  cases E with
  | none =>
    rw [renTop_none]
    · rfl
    · intro hall2
      exact hall2 f hf _ harg2 hE
  | some ws =>
    rw [renTop_canon]
    · simp only [Option.map_some]
      congr 3
      apply canon_congr
      intro e he
      by_cases hef : e = f
      · subst hef
        rw [harg2, Option.bind_some, hE, if_pos rfl]
        rfl
      · have hne : e.attr ≠ f.attr := by
          intro hae
          exact hef (key_inj (attrs_nodup c) he hf hae)
        rw [hargo e he hef, if_neg hne, hget e he]
    · intro e he v hev
      by_cases hef : e = f
      · subst hef
        rw [harg2] at hev
        injection hev with hev
        rw [← hev, hE]
        simp
      · rw [hargo e he hef] at hev
        exact har e he v hev

/-! ### Many calls -/

theorem branches_field {c : Cls} {m : String} : ∀ (bs : List Branch) (ps : List String),
    branchesOk c m bs ps = true → ∀ p ∈ ps,
      ∃ f ∈ Schema.ctor c, f.param = p ∧ f.shape ≠ .one ∧ f.req = false
  | [], [], _, p, hp => by simp at hp
  | [], _ :: _, h, _, _ => by simp [branchesOk] at h
  | _ :: _, [], h, _, _ => by simp [branchesOk] at h
  | b :: bs, q :: ps, h, p, hp => by
    simp only [branchesOk, Bool.and_eq_true] at h
    rcases List.mem_cons.1 hp with rfl | hp
    · obtain ⟨f, h1, h2, -, h4, h5, -⟩ := branch_spec h.1
      exact ⟨f, h1, h2, h4, h5⟩
    · exact branches_field bs ps h.2 p hp

theorem zip_rows {c : Cls} : ∀ (ms : List Method) (ps : List (String × List String)),
    ms.map Method.name = ps.map Prod.fst →
    ((ms.zip ps).all fun mp => branchesOk c mp.1.name mp.1.branches mp.2.2) = true →
    ∀ q ∈ ps, ∃ r : Method, branchesOk c r.name r.branches q.2 = true
  | [], [], _, _, q, hq => by simp at hq
  | [], _ :: _, h, _, _, _ => by simp at h
  | _ :: _, [], h, _, _, _ => by simp at h
  | r :: ms, p :: ps, h, hb, q, hq => by
    simp only [List.map_cons, List.cons.injEq] at h
    simp only [List.zip_cons_cons, List.all_cons, Bool.and_eq_true] at hb
    rcases List.mem_cons.1 hq with rfl | hq
    · exact ⟨r, hb.1⟩
    · exact zip_rows ms ps h.2 hb.2 q hq

theorem lists_field {c : Cls} {p : String} (h : p ∈ lists c) :
    ∃ f ∈ Schema.ctor c, f.param = p ∧ f.shape ≠ .one ∧ f.req = false := by
  have hc := classes_ok c
  simp only [classOk, Bool.and_eq_true, decide_eq_true_eq] at hc
  obtain ⟨q, hq, hp⟩ := List.mem_flatMap.1 h
  obtain ⟨r, hr⟩ := zip_rows _ _ hc.1.1.1.1 hc.1.1.1.2 q hq
  exact branches_field _ _ hr p hp

theorem parts_fit {c : Cls} {calls : List (String × Val Cls)} {f : Field Cls}
    (hf : f ∈ Schema.ctor c) {y : Val Cls} (hy : y ∈ parts c calls f.param) :
    (f.alts.any fun a => fitsS a y) = true := by
  obtain ⟨call, -, h⟩ := List.mem_filterMap.1 hy
  cases hp : part c call.1 call.2 with
  | none => simp [hp] at h
  | some qz =>
    obtain ⟨q, z⟩ := qz
    simp only [hp] at h
    obtain ⟨f', h1, h2, -, -, -, h6, -⟩ := add_part hp
    split at h
    · rename_i hq
      injection h with h
      subst h
      rwa [param_inj h1 hf (h2.trans hq)] at h6
    · cases h

theorem valid_many {c : Cls} {data data2 : Data Cls} {calls : List (String × Val Cls)}
    (hv : Valid c data)
    (hl : ∀ p ∈ lists c, lastOf data2 p = some (some (.list (given data p ++ parts c calls p))))
    (ho : ∀ p, p ∉ lists c → lastOf data2 p = lastOf data p) : Valid c data2 := by
  refine ⟨fun p hn => ?_, fun e he hq => ?_, fun e he => ?_⟩
  · by_cases hp : p ∈ lists c
    · obtain ⟨f, h1, h2, -⟩ := lists_field hp
      exact ⟨f, h1, h2⟩
    · rw [ho p hp] at hn
      exact hv.known p hn
  · by_cases hp : e.param ∈ lists c
    · obtain ⟨f, h1, h2, -, h4⟩ := lists_field hp
      rw [param_inj he h1 h2.symm, h4] at hq
      cases hq
    · rw [ho _ hp]
      exact hv.there e he hq
  · by_cases hp : e.param ∈ lists c
    · obtain ⟨f, h1, h2, h3, -⟩ := lists_field hp
      obtain rfl := param_inj h1 he h2
      have hws : ∀ y ∈ given data f.param ++ parts c calls f.param,
          (f.alts.any fun a => fitsS a y) = true := by
        intro y hy
        rcases List.mem_append.1 hy with hy | hy
        · exact (arg_given hv h1 h3).2 y hy
        · exact parts_fit h1 hy
      simp only [argOk, hl _ hp, Option.getD_some]
      cases hw : given data f.param ++ parts c calls f.param with
      | nil => rfl
      | cons w ws =>
        rw [hw] at hws
        simp only [normal, fits, Bool.and_eq_true, List.all_eq_true, decide_eq_true_eq]
        exact ⟨h3, hws⟩
    · have := hv.fit e he
      simp only [argOk, ho _ hp] at this ⊢
      exact this

theorem addAll_none (D : Digits) (ws : List (Val Cls)) : ∀ (vs us : List (Val Cls)),
    addAll D us vs = none → addAll D us (vs ++ ws) = none
  | [], us, h => by simp [addAll] at h
  | v :: vs, us, h => by
    simp only [List.cons_append, addAll] at h ⊢
    cases hv : addNamed D us v with
    | none => rfl
    | some w =>
      rw [hv] at h
      exact addAll_none D ws vs w h

/-- If the names cannot be made, longer lists do not help. -/
theorem none_many (D : Digits) {c : Cls} {data data2 : Data Cls} {calls : List (String × Val Cls)}
    (hv : Valid c data) (h : construct D c data = none)
    (hl : ∀ p ∈ lists c, lastOf data2 p = some (some (.list (given data p ++ parts c calls p))))
    (ho : ∀ p, p ∉ lists c → lastOf data2 p = lastOf data p) : construct D c data2 = none := by
  have hv2 := valid_many hv hl ho
  rw [construct_valid D hv] at h
  rw [construct_valid D hv2]
  rw [renTop_none]
  · rfl
  · intro hall
    have hn : ¬ AllRen D c (Schema.ctor c) (arg data) := by
      intro ha
      rw [renTop_canon D c _ _ ha] at h
      simp at h
    apply hn
    intro f hf v hfv
    by_cases hp : f.param ∈ lists c
    · obtain ⟨f', h1, h2, h3, -⟩ := lists_field hp
      obtain rfl := param_inj h1 hf h2
      rw [(arg_given hv h1 h3).1] at hfv
      have h2 := hall f' hf
      simp only [arg, hl _ hp, Option.getD_some] at h2
      cases hvs : given data f'.param with
      | nil => simp [hvs, normal] at hfv
      | cons w ws =>
        rw [hvs] at hfv h2
        simp only [normal, Option.some.injEq] at hfv
        subst hfv
        have h3 := h2 _ rfl
        intro hr
        apply h3
        simp only [ren] at hr ⊢
        split
        · rename_i hc
          rw [if_pos hc, Option.map_eq_none_iff] at hr
          have := addAll_none D (parts c calls f'.param) _ _ hr
          rw [this]
          rfl
        · rename_i hc
          rw [if_neg hc] at hr
          cases hr
    · have := hall f hf v
      simp only [arg, ho _ hp] at this hfv
      exact this hfv

theorem same (D : Digits) {c : Cls} : ∀ (calls : List (String × Val Cls)) (data data2 : Data Cls)
    (o : Val Cls), construct D c data = some (.ok o) →
    (∀ call ∈ calls, part c call.1 call.2 ≠ none) →
    (∀ p ∈ lists c, lastOf data2 p = some (some (.list (given data p ++ parts c calls p)))) →
    (∀ p, p ∉ lists c → lastOf data2 p = lastOf data p) →
    addMany D o calls = construct D c data2
  | [], data, data2, o, h, _, hl, ho => by
    have hv : Valid c data := valid_of_ok (r := some o) h
    have hv2 := valid_many hv hl ho
    rw [addMany, ← h, construct_valid D hv, construct_valid D hv2]
    congr 2
    apply canon_congr
    intro f hf
    by_cases hp : f.param ∈ lists c
    · obtain ⟨f', h1, h2, h3, -⟩ := lists_field hp
      obtain rfl := param_inj h1 hf h2
      rw [(arg_given hv h1 h3).1]
      simp only [arg, hl _ hp, Option.getD_some, parts, List.filterMap_nil, List.append_nil]
    · simp only [arg, ho _ hp]
  | (m, x) :: calls, data, data2, o, h, hc, hl, ho => by
    cases hp : part c m x with
    | none => exact absurd hp (hc (m, x) (by simp))
    | some py =>
      obtain ⟨p, y⟩ := py
      obtain ⟨f, h1, h2, h3, h4, h5, h6, h7⟩ := add_part hp
      have hd1 : ∀ q, lastOf (data ++ [(p, some (.list (given data p ++ [y])))]) q =
          if p = q then some (some (.list (given data p ++ [y]))) else lastOf data q :=
        fun q => Verif.Codec.Map.lastOf_append
      generalize data ++ [(p, some (.list (given data p ++ [y])))] = data1 at hd1
      obtain ⟨fs, rfl, hv1, hs⟩ := step D (data2 := data1) h1 h3 h4 h6 h (by rw [hd1, h2, if_pos rfl])
        (fun q hq => by rw [hd1, if_neg (fun e : p = q => hq (e ▸ h2.symm))])
      have hgiven : ∀ q, given data1 q ++ parts c calls q = given data q ++ parts c ((m, x) :: calls) q := by
        intro q
        by_cases hq : p = q
        · subst hq
          have : given data1 p = given data p ++ [y] := by
            simp only [given, hd1, if_true]
          rw [this]
          simp only [parts, List.filterMap_cons, hp, if_true, List.append_assoc, List.singleton_append]
        · have : given data1 q = given data q := by simp only [given, hd1, if_neg hq]
          rw [this]
          simp only [parts, List.filterMap_cons, hp, if_neg hq]
      have hl1 : ∀ q ∈ lists c,
          lastOf data2 q = some (some (.list (given data1 q ++ parts c calls q))) :=
        fun q hq => by rw [hl q hq, hgiven]
      have ho1 : ∀ q, q ∉ lists c → lastOf data2 q = lastOf data1 q := by
        intro q hq
        rw [ho q hq, hd1, if_neg]
        rintro rfl
        exact hq h5
      rw [addMany, h7]
      cases ha : addTo D c fs f.attr y with
      | none =>
        rw [ha] at hs
        exact (none_many D hv1 hs hl1 ho1).symm
      | some o' =>
        rw [ha] at hs
        exact same D calls data1 data2 o' hs (fun call hcall => hc call (by simp [hcall])) hl1 ho1

/-- The constructor refuses what the method refuses. -/
theorem refuses (D : Digits) {c : Cls} {m : String} {x : Val Cls} {q : String × List String}
    (hm : q ∈ partMethods c) (hq : q.1 = m) (h : part c m x = none) {p : String} (hp : p ∈ q.2)
    {data : Data Cls} {vs : List (Val Cls)} (hd : lastOf data p = some (some (.list vs)))
    (hx : meant m x ∈ vs) : ∃ e, construct D c data = some (.error e) := by
  have hpl : p ∈ lists c := List.mem_flatMap.2 ⟨q, hm, hp⟩
  obtain ⟨f, h1, rfl, h3, h4⟩ := lists_field hpl
  have hfind : (partMethods c).find? (fun r => r.1 = m) = some q := by
    have hn : ((partMethods c).map Prod.fst).Nodup := by
      have hr : ∀ n < 186, (((partMethods (Cls.ofNat n)).map Prod.fst).Nodup) := by decide +kernel
      have := hr c.ctorIdx (by cases c <;> decide)
      rwa [Cls.ofNat_ctorIdx] at this
    cases hf : (partMethods c).find? (fun r => r.1 = m) with
    | none => have := List.find?_eq_none.1 hf q hm; simp [hq] at this
    | some r =>
      have hr := List.find?_some hf
      simp only [decide_eq_true_eq] at hr
      rw [key_inj hn (List.mem_of_find?_eq_some hf) hm (hr.trans hq.symm)]
  have hno : (f.alts.any fun a => fitsS a (meant m x)) = false := by
    simp only [part, hfind, Option.map_eq_none_iff] at h
    have := List.find?_eq_none.1 h f.param hp
    rw [accepts_iff h1] at this
    simpa using this
  have hnv : ¬ Valid c data := by
    intro hv
    have := (arg_given hv h1 h3).2 (meant m x) (by simp only [given, hd]; exact hx)
    rw [hno] at this
    cases this
  obtain ⟨e, he⟩ := build_invalid hnv
  exact ⟨e, by simp only [construct, he]⟩

end Verif.Codec.Append
