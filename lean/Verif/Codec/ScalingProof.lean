import Verif.Codec.ScalingSpec
import Verif.Codec.ConstantProof
/-
Lemmas for C65.
-/
set_option linter.unusedSimpArgs false
set_option linter.unusedVariables false
namespace Verif.Codec.Scaling
open Verif.Py Verif.Num Verif.Enums Verif.Codec.Spec Verif.Codec.ScalingSpec Verif.Codec.ConstantSpec

/-! ### Numbers -/

theorem value_same {n m : PyNum} (h : SameNum n m) : value n = value m := by
  cases h with
  | same => rfl
  | zero neg e =>
    simp only [value]
    split <;> cases neg <;> simp [Rat.zero_mkRat]
  | whole neg c k =>
    simp only [value]
    rw [if_pos (by omega)]
    cases neg <;> simp

/-! ### Ways -/

theorem lookup_kept (lost first : Cls → List String) {c : Cls} {k : String} (hl : k ∉ lost c)
    (hf : k ∉ first c) (fs : List (String × Val Cls)) :
    (keptFields lost first c fs).lookup k = (fs.lookup k).map (kept lost first) := by
  induction fs with
  | nil => rfl
  | cons x fs ih =>
    obtain ⟨a, v⟩ := x
    simp only [keptFields]
    by_cases h : k = a
    · subst h
      simp [hl, hf, List.lookup]
    · have hb : (k == a) = false := by simpa using h
      split
      · rw [ih, List.lookup, hb]
      · simp only [List.lookup, hb, ih]

theorem lookup_lost (lost first : Cls → List String) {c : Cls} {k : String} (hl : k ∈ lost c)
    (fs : List (String × Val Cls)) : (keptFields lost first c fs).lookup k = none := by
  induction fs with
  | nil => rfl
  | cons x fs ih =>
    obtain ⟨a, v⟩ := x
    simp only [keptFields]
    split
    · exact ih
    · rename_i h
      have : (k == a) = false := by
        simp only [beq_eq_false_iff_ne]
        rintro rfl
        exact h hl
      simp only [List.lookup, this, ih]

/-- Both absent, or both there and related. -/
inductive Both (R : Val Cls → Val Cls → Prop) : Option (Val Cls) → Option (Val Cls) → Prop
  | none : Both R none none
  | some {v w} : R v w → Both R (some v) (some w)

theorem lookup_same (k : String) : {fs gs : List (String × Val Cls)} → SameFields fs gs →
    Both Same (fs.lookup k) (gs.lookup k)
  | _, _, .nil => .none
  | _, _, .cons a hv h => by
    simp only [List.lookup]
    cases k == a with
    | true => exact .some hv
    | false => exact lookup_same k h

theorem get_same (i : Nat) : {vs ws : List (Val Cls)} → SameList vs ws → Both Same vs[i]? ws[i]?
  | _, _, .nil => .none
  | _, _, .cons hv h => by
    cases i with
    | zero => exact .some hv
    | succ i => simpa using get_same i h

theorem sameFields_refl : (fs : List (String × Val Cls)) → SameFields fs fs
  | [] => .nil
  | (k, v) :: fs => .cons k (.same v) (sameFields_refl fs)

theorem sameList_refl : (vs : List (Val Cls)) → SameList vs vs
  | [] => .nil
  | v :: vs => .cons (.same v) (sameList_refl vs)

theorem same_obj {c : Cls} {fs : List (String × Val Cls)} {w : Val Cls} (h : Same (.obj c fs) w) :
    ∃ gs, w = .obj c gs ∧ SameFields fs gs := by
  cases h with
  | same => exact ⟨fs, rfl, sameFields_refl fs⟩
  | obj _ h => exact ⟨_, rfl, h⟩

theorem same_list {vs : List (Val Cls)} {w : Val Cls} (h : Same (.list vs) w) :
    ∃ ws, w = .list ws ∧ SameList vs ws := by
  cases h with
  | same => exact ⟨vs, rfl, sameList_refl vs⟩
  | list h => exact ⟨_, rfl, h⟩

theorem keptList_get (lost first : Cls → List String) (vs : List (Val Cls)) (i : Nat) :
    (keptList lost first vs)[i]? = (vs[i]?).map (kept lost first) := by
  induction vs generalizing i with
  | nil => rfl
  | cons v vs ih => cases i <;> simp [keptList, ih]

/-- What is left, and read back. -/
abbrev Back (lost first : Cls → List String) (v w : Val Cls) : Prop := Same (kept lost first v) w

theorem both_map {lost first : Cls → List String} {a : Option (Val Cls)} {b : Option (Val Cls)}
    (h : Both Same (a.map (kept lost first)) b) : Both (Back lost first) a b := by
  cases a with
  | none => cases h; exact .none
  | some v => cases h with | some h => exact .some h

theorem back_attr {lost first : Cls → List String} {c : Cls} {fs : List (String × Val Cls)}
    {w : Val Cls} (h : Back lost first (.obj c fs) w) : ∃ gs, w = .obj c gs ∧
    ∀ k, (k ∉ lost c → k ∉ first c → Both (Back lost first) (fs.lookup k) (gs.lookup k)) ∧
      (k ∈ lost c → gs.lookup k = none) := by
  obtain ⟨gs, rfl, hs⟩ := same_obj (by simpa only [Back, kept] using h)
  refine ⟨gs, rfl, fun k => ⟨fun hl hf => ?_, fun hl => ?_⟩⟩
  · have := lookup_same k hs
    rw [lookup_kept lost first hl hf] at this
    exact both_map this
  · have := lookup_same k hs
    rw [lookup_lost lost first hl] at this
    cases hg : gs.lookup k with
    | none => rfl
    | some y => rw [hg] at this; cases this

theorem back_item {lost first : Cls → List String} {vs : List (Val Cls)}
    {w : Val Cls} (h : Back lost first (.list vs) w) : ∃ ws, w = .list ws ∧
    ∀ i : Nat, Both (Back lost first) vs[i]? ws[i]? := by
  obtain ⟨ws, rfl, hs⟩ := same_list (by simpa only [Back, kept] using h)
  refine ⟨ws, rfl, fun i => ?_⟩
  have := get_same i hs
  rw [keptList_get] at this
  exact both_map this

theorem back_other {lost first : Cls → List String} {v w : Val Cls} (h : Back lost first v w)
    (h1 : ∀ c fs, v ≠ .obj c fs) (h2 : ∀ vs, v ≠ .list vs) :
    (∀ c fs, w ≠ .obj c fs) ∧ (∀ vs, w ≠ .list vs) := by
  cases v <;> simp_all [Back, kept] <;> cases h <;> simp

theorem follow_other {s : Step} {p : List Step} {v : Val Cls}
    (h1 : ∀ c fs, v ≠ .obj c fs) (h2 : ∀ vs, v ≠ .list vs) : follow (s :: p) v = none := by
  cases v <;> simp_all [follow] <;> cases s <;> rfl

/-- What a way leads to is what is left, if no attribute on it is lost. -/
theorem follow_back (lost first : Cls → List String) : (p : List Step) → (v w : Val Cls) →
    (∀ k, Step.attr k ∈ p → ∀ c, k ∉ lost c ∧ k ∉ first c) → Back lost first v w →
    Both (Back lost first) (follow p v) (follow p w)
  | [], v, w, _, h => .some h
  | .attr k :: p, v, w, hp, h => by
    cases v with
    | obj c fs =>
      obtain ⟨gs, rfl, hk⟩ := back_attr h
      have := (hk k).1 ((hp k (.head _) c).1) ((hp k (.head _) c).2)
      simp only [follow]
      cases hf : fs.lookup k with
      | none => rw [hf] at this; cases hg : gs.lookup k with
        | none => exact .none
        | some y => rw [hg] at this; cases this
      | some x => rw [hf] at this; cases hg : gs.lookup k with
        | none => rw [hg] at this; cases this
        | some y =>
          rw [hg] at this
          cases this with
          | some hb => exact follow_back lost first p x y (fun k h => hp k (.tail _ h)) hb
    | list vs =>
      obtain ⟨ws, rfl, -⟩ := back_item h
      exact .none
    | _ =>
      obtain ⟨a, b⟩ := back_other h (by simp) (by simp)
      rw [follow_other (by simp) (by simp), follow_other a b]
      exact .none
  | .item i :: p, v, w, hp, h => by
    cases v with
    | list vs =>
      obtain ⟨ws, rfl, hk⟩ := back_item h
      have := hk i
      simp only [follow]
      cases hf : vs[i]? with
      | none => rw [hf] at this; cases hg : ws[i]? with
        | none => exact .none
        | some y => rw [hg] at this; cases this
      | some x => rw [hf] at this; cases hg : ws[i]? with
        | none => rw [hg] at this; cases this
        | some y =>
          rw [hg] at this
          cases this with
          | some hb => exact follow_back lost first p x y (fun k h => hp k (.tail _ h)) hb
    | obj c fs =>
      obtain ⟨gs, rfl, -⟩ := back_attr h
      exact .none
    | _ =>
      obtain ⟨a, b⟩ := back_other h (by simp) (by simp)
      rw [follow_other (by simp) (by simp), follow_other a b]
      exact .none

/-! ### Limits -/

theorem limitAttr_back {lost first : Cls → List String} {k : String}
    {fs gs : List (String × Val Cls)} (h : Both (Back lost first) (fs.lookup k) (gs.lookup k)) :
    limitAttr k gs = limitAttr k fs := by
  unfold limitAttr
  generalize fs.lookup k = a at h
  generalize gs.lookup k = b at h
  cases h with
  | none => rfl
  | @some v w h =>
    cases v <;> simp only [Back, kept] at h <;> cases h <;> try rfl
    rename_i n m n' hn
    simp [value_same hn]

theorem check_back {lost first : Cls → List String} {c : Cls} {fs gs : List (String × Val Cls)}
    (hc : ∀ k ∈ ["lower_limit", "upper_limit"], k ∉ lost c ∧ k ∉ first c)
    (h : Back lost first (.obj c fs) (.obj c gs)) (x : PyNum) : check gs x = check fs x := by
  obtain ⟨gs', h1, h2⟩ := back_attr h
  cases h1
  have hl := hc "lower_limit" (by simp)
  have hu := hc "upper_limit" (by simp)
  have h1 := limitAttr_back ((h2 "lower_limit").1 hl.1 hl.2)
  have h2 := limitAttr_back ((h2 "upper_limit").1 hu.1 hu.2)
  simp only [check, limitsOf, h1, h2]

/-- A value of some type, or a list of such values. -/
def Ok (v : Val Cls) : Prop :=
  (∃ a, hasS tables v a = true) ∨ ∃ vs alts, v = .list vs ∧ hasList tables alts vs = true

theorem hasFields_lookup {s : List (Field Cls)} {fs : List (String × Val Cls)}
    (h : hasFields tables s fs = true) {k : String} {v : Val Cls} (hk : fs.lookup k = some v) :
    ∃ f, fieldOf s k = some f ∧ hasField tables f v = true := by
  induction fs with
  | nil => simp at hk
  | cons x fs ih =>
    obtain ⟨a, b⟩ := x
    rw [hasFields_cons, Bool.and_eq_true] at h
    simp only [List.lookup] at hk
    by_cases hak : k = a
    · subst hak
      simp only [beq_self_eq_true, Option.some.injEq] at hk
      subst hk
      cases hf : fieldOf s k with
      | none => rw [hf] at h; simp at h
      | some f => rw [hf] at h; exact ⟨f, rfl, h.1⟩
    · have : (k == a) = false := by simpa using hak
      rw [this] at hk
      exact ih h.2 hk

theorem ok_field {f : Field Cls} {v : Val Cls} (h : hasField tables f v = true) : Ok v := by
  unfold hasField at h
  split at h
  · obtain ⟨a, -, h⟩ := List.any_eq_true.1 h
    exact .inl ⟨a, h⟩
  all_goals
    split at h
    · simp only [Bool.and_eq_true] at h
      exact .inr ⟨_, _, rfl, h.2⟩
    · cases h

theorem ok_attr {c : Cls} {fs : List (String × Val Cls)} (h : Ok (.obj c fs)) {k : String}
    {v : Val Cls} (hk : fs.lookup k = some v) :
    ∃ f, fieldOf (tables.schema c) k = some f ∧ hasField tables f v = true := by
  rcases h with ⟨a, h⟩ | ⟨vs, alts, h, -⟩
  · cases a <;> simp [hasS] at h
    exact hasFields_lookup h.2 hk
  · cases h

theorem ok_item {vs : List (Val Cls)} (h : Ok (.list vs)) {i : Nat} {v : Val Cls}
    (hi : vs[i]? = some v) : Ok v := by
  rcases h with ⟨a, h⟩ | ⟨vs', alts, h, hl⟩
  · simp [hasS] at h
  · cases h
    induction vs generalizing i with
    | nil => simp at hi
    | cons x vs ih =>
      simp only [hasList, Bool.and_eq_true] at hl
      cases i with
      | zero =>
        simp at hi
        subst hi
        obtain ⟨a, -, h⟩ := List.any_eq_true.1 hl.1
        exact .inl ⟨a, h⟩
      | succ i => exact ih (by simpa using hi) hl.2

theorem checkAt_attr (k : String) (p : List Step) (c : Cls) (fs : List (String × Val Cls)) (x : PyNum) :
    checkAt (.attr k :: p) (.obj c fs) x =
      match fs.lookup k with | none => none | some v => checkAt p v x := by
  simp only [checkAt, follow]
  cases fs.lookup k <;> rfl

theorem checkAt_item (i : Nat) (p : List Step) (vs : List (Val Cls)) (x : PyNum) :
    checkAt (.item i :: p) (.list vs) x =
      match vs[i]? with | none => none | some v => checkAt p v x := by
  simp only [checkAt, follow]
  cases vs[i]? <;> rfl

theorem checkAt_other {s : Step} {p : List Step} {v : Val Cls} {x : PyNum}
    (h1 : ∀ c fs, v ≠ .obj c fs) (h2 : ∀ vs, v ≠ .list vs) : checkAt (s :: p) v x = none := by
  simp only [checkAt, follow_other h1 h2]

theorem checkAt_enum (p : List Step) (m : Member) (x : PyNum) : checkAt p (.enum m) x = none := by
  cases p with
  | nil => rfl
  | cons s p => exact checkAt_other (by simp) (by simp)

/-- Answers are the same at the end of every way, if only the validity of scale constraints is lost. -/
theorem checkAt_back (lost : Cls → List String)
    (hlost : ∀ c k, k ∈ lost c → c = .ScaleConstraint ∧ k = "validity") (x : PyNum) :
    (p : List Step) → (v w : Val Cls) → Ok v → Back lost (fun _ => []) v w →
    checkAt p w x = checkAt p v x
  | [], v, w, _, h => by
    cases v with
    | obj c fs =>
      obtain ⟨gs, rfl, -⟩ := back_attr h
      simp only [checkAt, follow]
      split
      · rename_i hc
        rw [check_back (fun k hk => ⟨fun hl => ?_, by simp⟩) h x]
        have := (hlost c k hl).2
        subst this
        simp at hk
      · rfl
    | list vs => obtain ⟨ws, rfl, -⟩ := back_item h; rfl
    | _ =>
      obtain ⟨a, b⟩ := back_other h (by simp) (by simp)
      cases w <;> simp_all [checkAt, follow]
  | .attr k :: p, v, w, ho, h => by
    cases v with
    | obj c fs =>
      obtain ⟨gs, rfl, hk⟩ := back_attr h
      rw [checkAt_attr, checkAt_attr]
      by_cases hl : k ∈ lost c
      · rw [(hk k).2 hl]
        obtain ⟨rfl, rfl⟩ := hlost c k hl
        cases hf : fs.lookup "validity" with
        | none => rfl
        | some v =>
          obtain ⟨f, h1, h2⟩ := ok_attr ho hf
          have : f = Schema.opt "validity" [.enum "ScaleConstraintValidity"] := by
            have h3 : fieldOf (tables.schema .ScaleConstraint) "validity" =
              some (Schema.opt "validity" [.enum "ScaleConstraintValidity"]) := by rfl
            rw [h3] at h1
            exact (Option.some.inj h1).symm
          subst this
          cases v <;> simp [hasField, Schema.opt, hasS] at h2
          exact (checkAt_enum p _ x).symm
      · have hb := (hk k).1 hl (by simp)
        generalize hgs : gs.lookup k = b at hb
        cases hf : fs.lookup k with
        | none => rw [hf] at hb; cases hb; rfl
        | some y =>
          rw [hf] at hb
          cases hb with
          | some hb =>
            obtain ⟨f, -, h2⟩ := ok_attr ho hf
            exact checkAt_back lost hlost x p y _ (ok_field h2) hb
    | list vs =>
      obtain ⟨ws, rfl, -⟩ := back_item h
      rfl
    | _ =>
      obtain ⟨a, b⟩ := back_other h (by simp) (by simp)
      rw [checkAt_other a b, checkAt_other (by simp) (by simp)]
  | .item i :: p, v, w, ho, h => by
    cases v with
    | list vs =>
      obtain ⟨ws, rfl, hk⟩ := back_item h
      rw [checkAt_item, checkAt_item]
      have hb := hk i
      generalize hgs : ws[i]? = b at hb
      cases hf : vs[i]? with
      | none => rw [hf] at hb; cases hb; rfl
      | some y =>
        rw [hf] at hb
        cases hb with
        | some hb => exact checkAt_back lost hlost x p y _ (ok_item ho hf) hb
    | obj c fs =>
      obtain ⟨gs, rfl, -⟩ := back_attr h
      rfl
    | _ =>
      obtain ⟨a, b⟩ := back_other h (by simp) (by simp)
      rw [checkAt_other a b, checkAt_other (by simp) (by simp)]

/-! ### Made objects can be written -/

open Verif.Codec.Constant (fields_ok)

def sel (b : Bool) (k : String) : List String := if b then [k] else []

theorem attr_names (k : String) (o : Option (Val Cls)) : (attr k o).map (·.1) = sel o.isSome k := by
  cases o <;> rfl

theorem items_names (k : String) (vs : List (Val Cls)) :
    (items k vs).map (·.1) = sel (!vs.isEmpty) k := by
  cases vs <;> rfl

theorem attr_ok {c : Cls} {k : String} {f : Field Cls} {o : Option (Val Cls)}
    {rest : List (String × Val Cls)} (hf : fieldOf (tables.schema c) k = some f)
    (hv : ∀ v, o = some v → hasField tables f v = true)
    (hr : hasFields tables (tables.schema c) rest = true) :
    hasFields tables (tables.schema c) (attr k o ++ rest) = true := by
  cases o with
  | none => exact hr
  | some v => exact fields_ok hf (hv v rfl) hr

theorem items_ok {c : Cls} {k : String} {f : Field Cls} {vs : List (Val Cls)}
    {rest : List (String × Val Cls)} (hf : fieldOf (tables.schema c) k = some f)
    (hs : f.shape = .many none) (hv : ∀ v ∈ vs, f.alts.any (hasS tables v) = true)
    (hr : hasFields tables (tables.schema c) rest = true) :
    hasFields tables (tables.schema c) (items k vs ++ rest) = true := by
  cases vs with
  | nil => exact hr
  | cons v vs =>
    refine fields_ok hf ?_ hr
    have : ∀ vs : List (Val Cls), (∀ v ∈ vs, f.alts.any (hasS tables v) = true) →
        hasList tables f.alts vs = true := by
      intro vs h
      induction vs with
      | nil => rfl
      | cons v vs ih => rw [hasList, h v (.head _), ih fun w hw => h w (.tail _ hw)]; rfl
    simp [hasField, hs, this _ hv, maxOk]

theorem plain_attr {k : String} {o : Option (Val Cls)} {rest : List (String × Val Cls)}
    (hk : k ∉ xmlAttrs) (hv : ∀ v, o = some v → plainVal xmlAttrs v = true)
    (hr : plainFields xmlAttrs rest = true) : plainFields xmlAttrs (attr k o ++ rest) = true := by
  cases o with
  | none => exact hr
  | some v =>
    show plainFields xmlAttrs ((k, v) :: rest) = true
    have h := hv v rfl
    cases v <;> simp_all [plainFields, plainVal]

theorem plainList_all {vs : List (Val Cls)} (hv : ∀ v ∈ vs, plainVal xmlAttrs v = true) :
    plainList xmlAttrs vs = true := by
  induction vs with
  | nil => rfl
  | cons v vs ih => rw [plainList, hv v (.head _), ih fun w hw => hv w (.tail _ hw)]; rfl

theorem plain_items {k : String} {vs : List (Val Cls)} {rest : List (String × Val Cls)}
    (hk : k ∉ xmlAttrs) (hv : ∀ v ∈ vs, plainVal xmlAttrs v = true)
    (hr : plainFields xmlAttrs rest = true) : plainFields xmlAttrs (items k vs ++ rest) = true := by
  cases vs with
  | nil => exact hr
  | cons v vs =>
    show plainFields xmlAttrs ((k, .list (v :: vs)) :: rest) = true
    have h := plainList_all hv
    simp_all [plainFields, plainVal]

theorem obj_ok {c : Cls} {fs : List (String × Val Cls)}
    (ho : orderOk (tables.schema c) (fs.map (·.1)) = true)
    (hf : hasFields tables (tables.schema c) fs = true) (hp : plainFields xmlAttrs fs = true) :
    WellFormed c (.obj c fs) := by
  refine ⟨by simp [hasS, ho, hf], by simpa [plainVal] using hp⟩

theorem limit_ok {n : Option PyNum} {t : IntervalType} (hn : goodNum n = true) {k : String}
    {v : Val Cls} (h : limit n t = some v) :
    hasField tables (Schema.opt k [.limit]) v = true ∧ plainVal xmlAttrs v = true := by
  cases n with
  | none => cases h
  | some n =>
    cases h
    have hm : ∀ t, (intervalMember t).cls = "IntervalType" ∧ enumOk (intervalMember t) = true := by
      intro t; cases t <;> decide +kernel
    refine ⟨?_, rfl⟩
    simpa [hasField, Schema.opt, hasS, hm t, goodNum] using hn

theorem num_ok {n : Option PyNum} (hn : goodNum n = true) {k : String}
    {v : Val Cls} (h : n.map .num = some v) :
    hasField tables (Schema.opt k [.int, .numFloat]) v = true ∧ plainVal xmlAttrs v = true := by
  cases n with
  | none => cases h
  | some n =>
    cases h
    refine ⟨?_, rfl⟩
    cases n <;> simp_all [hasField, Schema.opt, hasS, goodNum, numOk]

theorem args_good {a : Args} (h : goodArgs a = true) :
    goodNum a.lower_limit = true ∧ goodNum a.upper_limit = true ∧ goodNum a.max_gradient = true ∧
    goodNum a.max_diff = true ∧ (∀ s ∈ a.scale_constr, WellFormed .ScaleConstraint s) ∧
    (∀ m, a.monotony = some m → m.cls = "Monotony" ∧ enumOk m = true) ∧
    (∀ r, a.unit_ref = some r → hasS tables (.ref r) (.ref "UnitRef") = true ∧
      plainVal xmlAttrs (.ref r : Val Cls) = true) := by
  simp only [goodArgs, Bool.and_eq_true, List.all_eq_true] at h
  obtain ⟨⟨⟨⟨⟨⟨h1, h2⟩, h3⟩, h4⟩, h5⟩, h6⟩, h7⟩ := h
  refine ⟨h1, h2, h3, h4, h5, ?_, ?_⟩
  · intro m hm
    rw [hm] at h6
    simpa using h6
  · intro r hr
    rw [hr] at h7
    simpa using h7

theorem physical_ok {a : Args} (h : goodArgs a = true) :
    WellFormed .PhysicalConstraint (physicalConstraint a.lower_limit a.upper_limit a.scale_constr
      a.max_gradient a.max_diff a.monotony a.unit_ref a.lower_limit_type a.upper_limit_type) := by
  obtain ⟨h1, h2, h3, h4, h5, h6, h7⟩ := args_good h
  unfold physicalConstraint constraintBase limitObject
  simp only [List.append_assoc]
  refine obj_ok ?_ ?_ ?_
  · have ho : ∀ b1 b2 b3 b4 b5 b6 b7 : Bool, orderOk (tables.schema .PhysicalConstraint)
        (sel b1 "lower_limit" ++ (sel b2 "upper_limit" ++ (sel b3 "scale_constrs" ++
        (sel b4 "max_gradient" ++ (sel b5 "max_diff" ++ (sel b6 "monotony" ++ sel b7 "unit_ref")))))) =
        true := by decide +kernel
    simp only [List.map_append, attr_names, items_names]
    exact ho _ _ _ _ _ _ _
  · refine attr_ok (f := Schema.opt "lower_limit" [.limit]) (by rfl) (fun v hv => (limit_ok h1 hv).1) ?_
    refine attr_ok (f := Schema.opt "upper_limit" [.limit]) (by rfl) (fun v hv => (limit_ok h2 hv).1) ?_
    refine items_ok (f := ⟨"scale_constr", "scale_constrs", (.many none), [.cls .ScaleConstraint], false⟩)
      (by rfl) rfl (fun v hv => by simp [(h5 v hv).1]) ?_
    refine attr_ok (f := Schema.opt "max_gradient" [.int, .numFloat]) (by rfl) (fun v hv => (num_ok h3 hv).1) ?_
    refine attr_ok (f := Schema.opt "max_diff" [.int, .numFloat]) (by rfl) (fun v hv => (num_ok h4 hv).1) ?_
    refine attr_ok (f := Schema.opt "monotony" [.enum "Monotony"]) (by rfl) (fun v hv => ?_) ?_
    · obtain ⟨m, hm, rfl⟩ := Option.map_eq_some_iff.1 hv
      simp [hasField, Schema.opt, hasS, h6 m hm]
    rw [← List.append_nil (attr "unit_ref" _)]
    refine attr_ok (f := Schema.opt "unit_ref" [.ref "UnitRef"]) (by rfl) (fun v hv => ?_) rfl
    obtain ⟨r, hr, rfl⟩ := Option.map_eq_some_iff.1 hv
    simp [hasField, Schema.opt, (h7 r hr).1]
  · refine plain_attr (by decide) (fun v hv => (limit_ok (k := "") h1 hv).2) ?_
    refine plain_attr (by decide) (fun v hv => (limit_ok (k := "") h2 hv).2) ?_
    refine plain_items (by decide) (fun v hv => (h5 v hv).2) ?_
    refine plain_attr (by decide) (fun v hv => (num_ok (k := "") h3 hv).2) ?_
    refine plain_attr (by decide) (fun v hv => (num_ok (k := "") h4 hv).2) ?_
    refine plain_attr (by decide) (fun v hv => ?_) ?_
    · obtain ⟨m, hm, rfl⟩ := Option.map_eq_some_iff.1 hv
      rfl
    rw [← List.append_nil (attr "unit_ref" _)]
    refine plain_attr (by decide) (fun v hv => ?_) rfl
    obtain ⟨r, hr, rfl⟩ := Option.map_eq_some_iff.1 hv
    exact (h7 r hr).2

theorem internal_ok {a : Args} (h : goodArgs a = true) :
    WellFormed .InternalConstraint (internalConstraint a.lower_limit a.upper_limit a.scale_constr
      a.max_gradient a.max_diff a.monotony a.lower_limit_type a.upper_limit_type) := by
  obtain ⟨h1, h2, h3, h4, h5, h6, -⟩ := args_good h
  unfold internalConstraint constraintBase limitObject
  simp only [List.append_assoc]
  refine obj_ok ?_ ?_ ?_
  · have ho : ∀ b1 b2 b3 b4 b5 b6 : Bool, orderOk (tables.schema .InternalConstraint)
        (sel b1 "lower_limit" ++ (sel b2 "upper_limit" ++ (sel b3 "scale_constrs" ++
        (sel b4 "max_gradient" ++ (sel b5 "max_diff" ++ sel b6 "monotony"))))) =
        true := by decide +kernel
    simp only [List.map_append, attr_names, items_names]
    exact ho _ _ _ _ _ _
  · refine attr_ok (f := Schema.opt "lower_limit" [.limit]) (by rfl) (fun v hv => (limit_ok h1 hv).1) ?_
    refine attr_ok (f := Schema.opt "upper_limit" [.limit]) (by rfl) (fun v hv => (limit_ok h2 hv).1) ?_
    refine items_ok (f := ⟨"scale_constr", "scale_constrs", (.many none), [.cls .ScaleConstraint], false⟩)
      (by rfl) rfl (fun v hv => by simp [(h5 v hv).1]) ?_
    refine attr_ok (f := Schema.opt "max_gradient" [.int, .numFloat]) (by rfl) (fun v hv => (num_ok h3 hv).1) ?_
    refine attr_ok (f := Schema.opt "max_diff" [.int, .numFloat]) (by rfl) (fun v hv => (num_ok h4 hv).1) ?_
    rw [← List.append_nil (attr "monotony" _)]
    refine attr_ok (f := Schema.opt "monotony" [.enum "Monotony"]) (by rfl) (fun v hv => ?_) rfl
    obtain ⟨m, hm, rfl⟩ := Option.map_eq_some_iff.1 hv
    simp [hasField, Schema.opt, hasS, h6 m hm]
  · refine plain_attr (by decide) (fun v hv => (limit_ok (k := "") h1 hv).2) ?_
    refine plain_attr (by decide) (fun v hv => (limit_ok (k := "") h2 hv).2) ?_
    refine plain_items (by decide) (fun v hv => (h5 v hv).2) ?_
    refine plain_attr (by decide) (fun v hv => (num_ok (k := "") h3 hv).2) ?_
    refine plain_attr (by decide) (fun v hv => (num_ok (k := "") h4 hv).2) ?_
    rw [← List.append_nil (attr "monotony" _)]
    refine plain_attr (by decide) (fun v hv => ?_) rfl
    obtain ⟨m, hm, rfl⟩ := Option.map_eq_some_iff.1 hv
    rfl

theorem constraint_ok {name : String} (hn : goodText name = true) {r : Val Cls}
    (hr : WellFormed .DataConstraintRule r) : WellFormed .DataConstraint (dataConstraint name [r]) := by
  obtain ⟨n1, n2⟩ := Constant.goodText_iff.1 hn
  refine obj_ok ?_ ?_ ?_
  · exact (by decide +kernel : orderOk (tables.schema .DataConstraint) ["name", "rules"] = true)
  · refine fields_ok (f := Schema.req "name" [.str]) (by rfl) (by simp [hasField, Schema.req, hasS, n1]) ?_
    refine fields_ok (f := Schema.list "rules" [.cls .DataConstraintRule]) (by rfl) ?_ rfl
    simp [hasField, Schema.list, maxOk, hasList, hr.1]
  · show plainFields xmlAttrs [("name", .str name), ("rules", .list [r])] = true
    have h2 := hr.2
    simp only [plainFields, plainVal, plainList, n2, h2]
    simp [xmlAttrs]

theorem makePhysical_ok {name : String} (hn : goodText name = true) {a : Args} (h : goodArgs a = true) :
    WellFormed .DataConstraint (makePhysical name a) := by
  refine constraint_ok hn ?_
  have hp := physical_ok h
  unfold dataConstraintRule
  generalize physicalConstraint _ _ _ _ _ _ _ _ _ = c at hp
  refine obj_ok (fs := [("physical", c)]) ?_ ?_ ?_
  · exact (by decide +kernel : orderOk (tables.schema .DataConstraintRule) ["physical"] = true)
  · refine fields_ok (f := Schema.opt "physical" [.cls .PhysicalConstraint]) (by rfl) ?_ rfl
    simp [hasField, Schema.opt, hp.1]
  · have h2 := hp.2
    simp only [plainFields, h2]
    simp [xmlAttrs]

theorem makeInternal_ok {name : String} (hn : goodText name = true) {a : Args} (h : goodArgs a = true) :
    WellFormed .DataConstraint (makeInternal name a) := by
  refine constraint_ok hn ?_
  have hp := internal_ok h
  unfold dataConstraintRule
  generalize internalConstraint _ _ _ _ _ _ _ _ = c at hp
  refine obj_ok (fs := [("internal", c)]) ?_ ?_ ?_
  · exact (by decide +kernel : orderOk (tables.schema .DataConstraintRule) ["internal"] = true)
  · refine fields_ok (f := Schema.opt "internal" [.cls .InternalConstraint]) (by rfl) ?_ rfl
    simp [hasField, Schema.opt, hp.1]
  · have h2 := hp.2
    simp only [plainFields, h2]
    simp [xmlAttrs]

end Verif.Codec.Scaling
