import Verif.Codec.RenameSpec
import Verif.Codec.PackageRt
/-
Constructors of runnables leave names alone that are different.
-/
namespace Verif.Codec.Rename
open Verif.Py Verif.Names Verif.Codec Verif.Codec.Spec Verif.Codec.RenameSpec

theorem setNameIn_self (fs : List (String × Val Cls)) :
    ∀ s, dictGet fs "name" = some (.str s) → setNameIn s.toList fs = fs := by
  induction fs with
  | nil => intro s h; rfl
  | cons kv rest ih =>
    obtain ⟨k, v⟩ := kv
    intro s h
    simp only [dictGet] at h
    split at h
    · injection h with h
      subst h
      rename_i hk
      simp [setNameIn, hk]
    · rename_i hk
      simp only [setNameIn, if_neg hk, ih s h]

theorem setNameIn_none (fs : List (String × Val Cls)) (n : Name)
    (h : ∀ s, dictGet fs "name" ≠ some (.str s)) : setNameIn n fs = fs := by
  induction fs with
  | nil => rfl
  | cons kv rest ih =>
    obtain ⟨k, v⟩ := kv
    by_cases hk : k = "name"
    · subst hk
      simp only [dictGet, if_pos] at h
      cases v <;> first | rfl | exact absurd rfl (h _)
    · simp only [dictGet, if_neg hk] at h
      simp only [setNameIn, if_neg hk, ih h]

theorem setName_self (v : Val Cls) : setName v (nameIn v) = v := by
  cases v with
  | obj c fs =>
    simp only [setName, nameIn]
    split
    · rename_i s hs
      rw [setNameIn_self fs s hs]
    · rename_i hn
      rw [setNameIn_none fs _ hn]
  | _ => rfl

theorem zip_self (vs : List (Val Cls)) : List.zipWith setName vs (vs.map nameIn) = vs := by
  induction vs with
  | nil => rfl
  | cons v vs ih => simp only [List.map_cons, List.zipWith_cons_cons, setName_self, ih]

theorem addNamed_new (D : Digits) {vs : List (Val Cls)} {x : Val Cls} (hp : Plain (nameIn x))
    (hn : nameIn x ∉ vs.map nameIn) : addNamed D vs x = some (vs ++ [x]) := by
  obtain ⟨h, -, hc⟩ := makeUnique_cases D (vs.map nameIn) (nameIn x) hp
  rcases hc with ⟨-, -, hr⟩ | ⟨-, hr⟩ | ⟨p, s, he, -, -⟩
  · simp only [addNamed, hr, zip_self]
  · simp only [addNamed, hr, zip_self]
  · rw [he] at hn; simp at hn

theorem addAll_new (D : Digits) : ∀ (xs vs : List (Val Cls)), ((vs ++ xs).map nameIn).Nodup →
    (∀ x ∈ xs, Plain (nameIn x)) → addAll D vs xs = some (vs ++ xs)
  | [], vs, _, _ => by simp [addAll]
  | x :: xs, vs, hn, hp => by
    have h1 : nameIn x ∉ vs.map nameIn := by
      rw [List.map_append, List.nodup_append] at hn
      intro hm
      exact hn.2.2 _ hm _ (by simp) rfl
    simp only [addAll, addNamed_new D (hp x (by simp)) h1]
    rw [addAll_new D xs (vs ++ [x]) (by simpa using hn) (fun y hy => hp y (by simp [hy]))]
    simp

theorem renameFields_own (D : Digits) : ∀ fs : List (String × Val Cls),
    (∀ k ∈ accessLists, ∀ vs, (k, .list vs) ∈ fs →
      (vs.map nameIn).Nodup ∧ ∀ x ∈ vs, Plain (nameIn x)) → renameFields D fs = some fs
  | [], _ => rfl
  | (k, v) :: rest, h => by
    have hr := renameFields_own D rest (fun k hk vs hm => h k hk vs (by simp [hm]))
    by_cases hk : k ∈ renamed
    · cases v with
      | list vs =>
        obtain ⟨h1, h2⟩ := h k hk vs (by simp)
        simp only [renameFields, if_pos hk, hr, addAll_new D vs [] (by simpa using h1) h2,
          List.nil_append, Option.map_some]
      | _ => simp only [renameFields, if_pos hk, hr]
    · simp only [renameFields, if_neg hk, hr]

theorem own_list {vs : List (Val Cls)} (h : OwnNames (.list vs)) : ∀ v ∈ vs, OwnNames v :=
  fun _ hv fs hi => h fs (.list hv hi)

theorem own_obj {c : Cls} {fs : List (String × Val Cls)} (h : OwnNames (.obj c fs)) :
    ∀ kv ∈ fs, OwnNames kv.2 :=
  fun _ hv fs hi => h fs (.obj hv hi)

mutual
theorem settle_own (D : Digits) : ∀ v : Val Cls, OwnNames v → settle D v = some v
  | .list vs, h => by rw [settle, settleList_own D vs (own_list h)]; rfl
  | .obj c fs, h => by
    rw [settle, settleFields_own D fs (own_obj h)]
    by_cases hc : c = .RunnableEntity
    · subst hc
      simp only [if_true, renameFields_own D fs (h fs .here), Option.map_some]
    · simp only [if_neg hc, Option.map_some]
  | .str _, _ => rfl
  | .bool _, _ => rfl
  | .num _, _ => rfl
  | .numval _, _ => rfl
  | .enum _, _ => rfl
  | .limit _ _, _ => rfl
  | .ref _, _ => rfl
theorem settleList_own (D : Digits) : ∀ vs : List (Val Cls), (∀ v ∈ vs, OwnNames v) →
    settleList D vs = some vs
  | [], _ => rfl
  | v :: vs, h => by
    rw [settleList, settle_own D v (h v (by simp)),
      settleList_own D vs (fun w hw => h w (by simp [hw]))]
theorem settleFields_own (D : Digits) : ∀ fs : List (String × Val Cls),
    (∀ kv ∈ fs, OwnNames kv.2) → settleFields D fs = some fs
  | [], _ => rfl
  | (k, v) :: rest, h => by
    rw [settleFields, settle_own D v (h (k, v) (by simp)),
      settleFields_own D rest (fun w hw => h w (by simp [hw]))]
end

/-! ### What is read has the same names -/

theorem cutAt_inside {s : List (Field Cls)} {k : String} {w : Val Cls} {c : Cls}
    {fs : List (String × Val Cls)} (h : Inside (.obj c fs) (cutAt s k w)) : Inside (.obj c fs) w := by
  simp only [cutAt] at h
  split at h
  · simp only [Field.cut] at h
    split at h
    · cases h with
      | list hm hi =>
        simp only [List.mem_singleton] at hm
        subst hm
        exact .list (by simp) hi
    · exact h
  · exact h

mutual
theorem norm_inside {c : Cls} {fs' : List (String × Val Cls)} : ∀ (b : Bool) (v : Val Cls),
    Inside (.obj c fs') (normVal tables b v) →
    ∃ fs, Inside (.obj c fs) v ∧ fs' = normFields tables c fs
  | b, .list vs, h => by
    rw [normVal] at h
    cases h with
    | list hm hi =>
      obtain ⟨w, hw, fs, h1, h2⟩ := normList_inside b vs _ hm hi
      exact ⟨fs, .list hw h1, h2⟩
  | b, .obj d gs, h => by
    rw [normVal] at h
    cases h with
    | here => exact ⟨gs, .here, rfl⟩
    | obj hm hi =>
      obtain ⟨kv, hw, fs, h1, h2⟩ := normFields_inside d gs _ _ hm hi
      exact ⟨fs, .obj hw h1, h2⟩
  | _, .str _, h => by rw [normVal] at h; cases h
  | _, .bool _, h => by rw [normVal] at h; cases h
  | _, .num _, h => by rw [normVal] at h; cases h
  | _, .numval _, h => by rw [normVal] at h; cases h
  | _, .enum _, h => by rw [normVal] at h; cases h
  | _, .limit _ _, h => by rw [normVal] at h; cases h
  | _, .ref _, h => by rw [normVal] at h; cases h
theorem normList_inside {c : Cls} {fs' : List (String × Val Cls)} : ∀ (b : Bool)
    (vs : List (Val Cls)) (y : Val Cls), y ∈ normList tables b vs → Inside (.obj c fs') y →
    ∃ w ∈ vs, ∃ fs, Inside (.obj c fs) w ∧ fs' = normFields tables c fs
  | _, [], _, hm, _ => by simp [normList] at hm
  | b, v :: vs, y, hm, hi => by
    rw [normList, List.mem_cons] at hm
    rcases hm with rfl | hm
    · obtain ⟨fs, h1, h2⟩ := norm_inside b v hi
      exact ⟨v, by simp, fs, h1, h2⟩
    · obtain ⟨w, hw, r⟩ := normList_inside b vs y hm hi
      exact ⟨w, by simp [hw], r⟩
theorem normFields_inside {c : Cls} {fs' : List (String × Val Cls)} (d : Cls) :
    ∀ (gs : List (String × Val Cls)) (k : String) (y : Val Cls), (k, y) ∈ normFields tables d gs →
    Inside (.obj c fs') y →
    ∃ kv ∈ gs, ∃ fs, Inside (.obj c fs) kv.2 ∧ fs' = normFields tables c fs
  | [], _, _, hm, _ => by simp [normFields] at hm
  | (k', v) :: rest, k, y, hm, hi => by
    rw [normFields] at hm
    split at hm
    · obtain ⟨w, hw, r⟩ := normFields_inside d rest k y hm hi
      exact ⟨w, by simp [hw], r⟩
    · rw [List.mem_cons] at hm
      rcases hm with he | hm
      · injection he with h1 h2
        subst h2
        obtain ⟨fs, h1, h2⟩ := norm_inside _ v (cutAt_inside hi)
        exact ⟨(k', v), by simp, fs, h1, h2⟩
      · obtain ⟨w, hw, r⟩ := normFields_inside d rest k y hm hi
        exact ⟨w, by simp [hw], r⟩
end

theorem name_kept (c : Cls) : "name" ∉ tables.lost c := by
  have h : ∀ n < 186, "name" ∉ tables.lost (Cls.ofNat n) := by decide +kernel
  have := h c.ctorIdx (by cases c <;> decide)
  rwa [Cls.ofNat_ctorIdx] at this

theorem cutAt_str (s : List (Field Cls)) (k : String) (x : String) :
    cutAt s k (.str x) = .str x := by
  simp only [cutAt]
  split <;> simp [Field.cut]

theorem cutAt_shape (s : List (Field Cls)) (k : String) {w : Val Cls}
    (h : ∀ x, w ≠ .str x) : ∀ x, cutAt s k w ≠ .str x := by
  intro x
  simp only [cutAt]
  split
  · simp only [Field.cut]
    split
    · simp
    · exact h x
  · exact h x

theorem norm_name (c : Cls) (fs : List (String × Val Cls)) :
    nameIn (.obj c (normFields tables c fs)) = nameIn (.obj c fs) := by
  simp only [nameIn]
  induction fs with
  | nil => rfl
  | cons kv rest ih =>
    obtain ⟨k, v⟩ := kv
    rw [normFields]
    by_cases hk : k = "name"
    · subst hk
      rw [if_neg (name_kept c)]
      simp only [dictGet, if_true]
      cases v with
      | str s => rw [normVal, cutAt_str]
      | _ =>
        split
        · rename_i s hs
          injection hs with hs
          refine absurd hs (cutAt_shape _ _ ?_ s)
          intro x; simp [normVal]
        · rfl
    · by_cases hl : k ∈ tables.lost c
      · simp only [if_pos hl, dictGet, if_neg hk, ih]
      · simp only [if_neg hl, dictGet, if_neg hk, ih]

theorem nameIn_norm (b : Bool) (v : Val Cls) : nameIn (normVal tables b v) = nameIn v := by
  cases v with
  | obj c fs => rw [normVal, norm_name]
  | _ => rfl

theorem normList_names (b : Bool) (vs : List (Val Cls)) :
    (normList tables b vs).map nameIn = vs.map nameIn := by
  induction vs with
  | nil => rfl
  | cons v vs ih => simp only [normList, List.map_cons, nameIn_norm, ih]

theorem cutAt_list {s : List (Field Cls)} {k : String} {w : Val Cls} {vs : List (Val Cls)}
    (h : cutAt s k w = .list vs) : ∃ ws, w = .list ws ∧ List.Sublist vs ws := by
  simp only [cutAt] at h
  split at h
  · simp only [Field.cut] at h
    split at h
    · injection h with h
      subst h
      exact ⟨_, rfl, by simp⟩
    · exact ⟨vs, h, List.Sublist.refl _⟩
  · exact ⟨vs, h, List.Sublist.refl _⟩

theorem normFields_list {c : Cls} {k : String} {vs : List (Val Cls)} :
    ∀ fs : List (String × Val Cls), (k, .list vs) ∈ normFields tables c fs →
    ∃ us b, (k, .list us) ∈ fs ∧ List.Sublist vs (normList tables b us)
  | [], hm => by simp [normFields] at hm
  | (k', v) :: rest, hm => by
    rw [normFields] at hm
    split at hm
    · obtain ⟨us, b, h1, h2⟩ := normFields_list rest hm
      exact ⟨us, b, by simp [h1], h2⟩
    · rw [List.mem_cons] at hm
      rcases hm with he | hm
      · injection he with h1 h2
        subst h1
        obtain ⟨ws, hw, hs⟩ := cutAt_list h2.symm
        cases v with
        | list us =>
          rw [normVal] at hw
          injection hw with hw
          subst hw
          exact ⟨us, _, by simp, hs⟩
        | _ => simp [normVal] at hw
      · obtain ⟨us, b, h1, h2⟩ := normFields_list rest hm
        exact ⟨us, b, by simp [h1], h2⟩

theorem own_norm {v : Val Cls} (b : Bool) (h : OwnNames v) : OwnNames (normVal tables b v) := by
  intro fs' hi k hk vs hm
  obtain ⟨fs, h1, rfl⟩ := norm_inside b v hi
  obtain ⟨us, b', h2, h3⟩ := normFields_list fs hm
  obtain ⟨h4, h5⟩ := h fs h1 k hk us h2
  have h6 := h3.map nameIn
  rw [normList_names] at h6
  refine ⟨h6.nodup h4, fun x hx => ?_⟩
  obtain ⟨u, hu, he⟩ := List.mem_map.1 (h6.subset (List.mem_map_of_mem hx))
  rw [← he]
  exact h5 u hu

mutual
theorem settlePkg_own (D : Digits) : ∀ p : Pkg, OwnNamesPkg p →
    settlePkg D (normPkg p) = some (normPkg p)
  | .mk head es ps, h => by
    rw [OwnNamesPkg] at h
    rw [normPkg, settlePkg, settleList_own D _ (by
      intro v hv
      obtain ⟨u, hu, rfl⟩ := List.mem_map.1 hv
      exact own_norm false (h.1 u hu)), settlePkgs_own D ps h.2]
theorem settlePkgs_own (D : Digits) : ∀ ps : List Pkg, OwnNamesPkgs ps →
    settlePkgs D (normPkgs ps) = some (normPkgs ps)
  | [], _ => rfl
  | p :: ps, h => by
    rw [OwnNamesPkgs] at h
    rw [normPkgs, settlePkgs, settlePkg_own D p h.1, settlePkgs_own D ps h.2]
end

end Verif.Codec.Rename
