import Verif.Codec.LoadBuild
import Verif.Codec.PackageRt
/-
Documents that are read, and what is left of objects that are written and read twice.
-/
set_option linter.unusedSimpArgs false
set_option linter.unusedVariables false
namespace Verif.Codec.Load
open Verif.Py Verif.Enums Verif.Num Verif.Xml Verif.Xml.Spec Verif.Codec.Spec

/-! ### Well-formed objects -/

mutual
theorem plain_of : ∀ v : Val Cls, writable v = true → plainVal xmlAttrs v = true
  | .str s, h => by
    simp only [writable, Bool.and_eq_true] at h
    simpa [plainVal] using h.2
  | .ref r, h => by
    simp only [writable, Bool.and_eq_true] at h
    simpa [plainVal] using h.2
  | .list vs, h => by
    simp only [writable] at h
    simp only [plainVal]
    exact plainList_of vs h
  | .obj c fs, h => by
    simp only [writable, Bool.and_eq_true] at h
    simp only [plainVal]
    exact plainFields_of c fs h.2
  | .bool _, _ => rfl
  | .num _, _ => rfl
  | .numval _, _ => rfl
  | .enum _, _ => rfl
  | .limit _ _, _ => rfl
theorem plainList_of : ∀ vs : List (Val Cls), writableList vs = true → plainList xmlAttrs vs = true
  | [], _ => rfl
  | v :: vs, h => by
    simp only [writableList, Bool.and_eq_true] at h
    rw [plainList, plain_of v h.1, plainList_of vs h.2]
    rfl
theorem plainFields_of (c : Cls) : ∀ fs : List (String × Val Cls), writableFields c fs = true →
    plainFields xmlAttrs fs = true
  | [], _ => rfl
  | (k, v) :: fs, h => by
    simp only [writableFields, attrWritable, Bool.and_eq_true] at h
    unfold plainFields
    rw [plain_of v h.1.1, plainFields_of c fs h.2, Bool.true_and, Bool.and_true]
    have h' := h.1.2.1.1
    cases v <;> exact h'
end

theorem wellFormed_of {c : Cls} {fs : List (String × Val Cls)} (h : RawS (.obj c fs))
    (hw : writable (.obj c fs) = true) : WellFormed c (.obj c fs) :=
  ⟨h hw, plain_of _ hw⟩

/-! ### Packages -/

/-- A package that was read. -/
def Good (p : Pkg) : Prop := writablePkg p = true → WellFormedPkg p

theorem elements_raw {stop : Bool} {ks : List RD} (hk : ∀ k ∈ ks, Fine k) :
    ∀ {acc es : List (Val Cls)}, (∀ v ∈ acc, RawS v ∧ ∃ c fs, v = .obj c fs ∧ isARElement c = true) →
      (acc.map elemName).Nodup → readElements stop acc ks = .ok es →
      (∀ v ∈ es, RawS v ∧ ∃ c fs, v = .obj c fs ∧ isARElement c = true) ∧
      (es.map elemName).Nodup := by
  induction ks with
  | nil =>
    intro acc es ha hn h
    rw [readElements] at h
    cases h
    exact ⟨ha, hn⟩
  | cons k ks ih =>
    intro acc es ha hn h
    have ih := @ih (fun k hk' => hk k (by simp [hk']))
    rw [readElements] at h
    split at h
    · exact ih ha hn h
    · rename_i m hm
      split at h
      · unfold report at h
        split at h
        · cases h
        · split at h
          · exact ih ha hn h
          · cases h
      · rename_i c fs hr
        split at h
        · cases h
        · rename_i hc
          split at h
          · unfold report at h
            split at h
            · cases h
            · split at h
              · exact ih ha hn h
              · cases h
          · rename_i hnot
            refine ih ?_ ?_ h
            · intro v hv
              rcases List.mem_append.1 hv with hv | hv
              · exact ha v hv
              · simp only [List.mem_singleton] at hv
                subst hv
                exact ⟨(hk k (by simp) m _ hr).1, c, fs, rfl, by simpa using hc⟩
            · rw [List.map_append, List.nodup_append]
              refine ⟨hn, by simp, ?_⟩
              intro a ha' b hb
              simp only [List.map_cons, List.map_nil, List.mem_singleton] at hb
              rintro rfl
              exact hnot (hb ▸ ha')
      · cases h

theorem subs_raw {ks : List PDen} : ∀ {taken : List (Option String)} {ps : List Pkg},
    taken.Nodup → readSubs taken ks = .ok ps →
    (taken ++ ps.map Pkg.name).Nodup ∧ ∀ p ∈ ps, ∃ k ∈ ks, k.pkg = .ok p := by
  induction ks with
  | nil =>
    intro taken ps hn h
    rw [readSubs] at h
    cases h
    simpa using hn
  | cons k ks ih =>
    intro taken ps hn h
    rw [readSubs] at h
    split at h
    · cases h
    · rename_i p hp
      split at h
      · cases h
      · rename_i hnot
        split at h
        · cases h
        · rename_i ps' hps
          cases h
          have hn' : (taken ++ [p.name]).Nodup := by
            rw [List.nodup_append]
            refine ⟨hn, by simp, ?_⟩
            intro a ha b hb
            simp only [List.mem_singleton] at hb
            rintro rfl
            exact hnot (hb ▸ ha)
          obtain ⟨h1, h2⟩ := ih hn' hps
          refine ⟨by simpa using h1, ?_⟩
          intro q hq
          rcases List.mem_cons.1 hq with rfl | hq
          · exact ⟨k, by simp, hp⟩
          · obtain ⟨k', h3, h4⟩ := h2 q hq
            exact ⟨k', by simp [h3], h4⟩

theorem root_raw {ks : List PDen} : ∀ {taken : List (Option String)} {ps : List Pkg},
    taken.Nodup → readRoot taken ks = .ok ps →
    (taken ++ ps.map Pkg.name).Nodup ∧ ∀ p ∈ ps, ∃ k ∈ ks, k.pkg = .ok p := by
  induction ks with
  | nil =>
    intro taken ps hn h
    rw [readRoot] at h
    cases h
    simpa using hn
  | cons k ks ih =>
    intro taken ps hn h
    rw [readRoot] at h
    split at h
    · cases h
    · rename_i p hp
      split at h
      · cases h
      · rename_i hnot
        split at h
        · cases h
        · rename_i ps' hps
          cases h
          have hn' : (taken ++ [p.name]).Nodup := by
            rw [List.nodup_append]
            refine ⟨hn, by simp, ?_⟩
            intro a ha b hb
            simp only [List.mem_singleton] at hb
            rintro rfl
            exact hnot (hb ▸ ha)
          obtain ⟨h1, h2⟩ := ih hn' hps
          refine ⟨by simpa using h1, ?_⟩
          intro q hq
          rcases List.mem_cons.1 hq with rfl | hq
          · exact ⟨k, by simp, hp⟩
          · obtain ⟨k', h3, h4⟩ := h2 q hq
            exact ⟨k', by simp [h3], h4⟩

theorem writablePkgs_mem {ps : List Pkg} (h : writablePkgs ps = true) :
    ∀ p ∈ ps, writablePkg p = true := by
  induction ps with
  | nil => simp
  | cons p ps ih =>
    simp only [writablePkgs, Bool.and_eq_true] at h
    intro q hq
    rcases List.mem_cons.1 hq with rfl | hq
    · exact h.1
    · exact ih h.2 q hq

theorem wellFormedPkgs_iff {ps : List Pkg} : WellFormedPkgs ps ↔ ∀ p ∈ ps, WellFormedPkg p := by
  induction ps with
  | nil => simp [WellFormedPkgs]
  | cons p ps ih => simp [WellFormedPkgs, ih]

theorem childP_mem {tag : String} {kids : List PDen} {x : PDen} (h : childP tag kids = some x) :
    x ∈ kids := by
  unfold childP at h
  exact (List.mem_filter.1 (List.mem_of_head? h)).1

theorem package_raw {stop : Bool} {den : RD} {kids : List PDen} (hd : Fine den)
    (hkk : ∀ x ∈ kids, ∀ k ∈ x.kids, Fine k.den ∧ ∀ p, k.pkg = .ok p → Good p) {p : Pkg}
    (h : readPackage stop den kids = .ok p) : Good p := by
  unfold readPackage at h
  split at h
  · cases h
  · rename_i c head hread
    obtain ⟨h1, h2⟩ := hd _ _ hread
    have hc : c = .Package := by
      have : rm .package den.tag = .node .Package (match rm .package den.tag with
          | .node _ i => i | _ => []) := by rfl
      rw [this] at h2
      obtain ⟨fs, h2⟩ := h2
      cases h2
      rfl
    subst hc
    split at h
    · cases h
    · rename_i es hes
      have hes' : (∀ v ∈ es, RawS v ∧ ∃ c fs, v = .obj c fs ∧ isARElement c = true) ∧
          (es.map elemName).Nodup := by
        unfold readElementsOf at hes
        split at hes
        · cases hes
          simp
        · rename_i x hx
          refine elements_raw ?_ (by simp) (by simp) hes
          intro k hk
          obtain ⟨q, hq, rfl⟩ := List.mem_map.1 hk
          exact (hkk x (childP_mem hx) q hq).1
      have key : ∀ ps, (∀ p ∈ ps, Good p) → (es.map elemName ++ ps.map Pkg.name).Nodup →
          Good (.mk head es ps) := by
        intro ps hps hn hw
        simp only [writablePkg, Bool.and_eq_true] at hw
        refine ⟨wellFormed_of h1 hw.1.1, ?_, hn, ?_⟩
        · intro v hv
          obtain ⟨h3, c, fs, rfl, h4⟩ := hes'.1 v hv
          exact ⟨c, h4, wellFormed_of h3 (writableList_mem hw.1.2 _ hv)⟩
        · rw [wellFormedPkgs_iff]
          intro p hp
          exact hps p hp (writablePkgs_mem hw.2 p hp)
      split at h
      · cases h
        exact key [] (by simp) (by simpa using hes'.2)
      · rename_i x hx
        split at h
        · cases h
        · rename_i ps hps
          cases h
          obtain ⟨h5, h6⟩ := subs_raw hes'.2 hps
          refine key ps ?_ h5
          intro p hp
          obtain ⟨k, hk, hkp⟩ := h6 p hp
          exact (hkk x (childP_mem hx) k (List.mem_filter.1 hk).1).2 p hkp
  · cases h

theorem preads_mem {stop : Bool} {ds : List Dom} {ks : List PDen} (h : PReads stop ds ks) :
    ∀ k ∈ ks, ∃ d ∈ ds, ∃ tl, pden stop tl d = some k := by
  induction h with
  | nil => simp
  | cons hd _ ih =>
    intro k hk
    rcases List.mem_cons.1 hk with rfl | hk
    · exact ⟨_, List.mem_cons_self, _, hd⟩
    · obtain ⟨d, h1, h2⟩ := ih k hk
      exact ⟨d, List.mem_cons_of_mem _ h1, h2⟩

theorem pkids_mem {stop : Bool} {ds : List Dom} {k : PDen} (h : k ∈ pdenKids stop ds) :
    ∃ d ∈ ds, ∃ tl, pden stop tl d = some k := by
  obtain ⟨d, h1, h2⟩ := preads_mem (preads_elems stop ds) k h
  exact ⟨d, elemsOf_mem h1, h2⟩

theorem pden_good (stop : Bool) : ∀ (n : Nat) (d : Dom), sizeOf d < n → ∀ (tl : Option String)
    (q : PDen), pden stop tl d = some q → Fine q.den ∧ ∀ p, q.pkg = .ok p → Good p := by
  intro n
  induction n with
  | zero => intro d h; omega
  | succ n ih =>
    intro d hn tl q hq
    cases d with
    | text s => rw [pden] at hq; cases hq
    | elem t as ds =>
      rw [pden] at hq
      split at hq
      · rename_i k hk
        cases hq
        have hf : Fine k := den_fine _ _ (Nat.lt_succ_self _) _ k hk
        refine ⟨hf, fun p hp => package_raw hf ?_ hp⟩
        intro x hx k' hk'
        obtain ⟨d, hd, tl', h'⟩ := pkids_mem hx
        have hs := List.sizeOf_lt_of_mem hd
        cases d with
        | text s => rw [pden] at h'; cases h'
        | elem t' as' ds' =>
          rw [pden] at h'
          split at h'
          · cases h'
            obtain ⟨d2, hd2, tl2, h2⟩ := pkids_mem hk'
            refine ih d2 ?_ tl2 k' h2
            have h1 := List.sizeOf_lt_of_mem hd2
            simp at hs hn
            omega
          · cases h'
      · cases hq

/-- A document that was read and has nothing in it that cannot be written is well formed. -/
theorem doc_good {stop : Bool} {version : Nat} {d : Dom} {doc : Document}
    (h : readTree stop version d = .ok doc) (hv : 50 ≤ doc.schemaVersion)
    (hw : writablePkgs doc.packages = true) : WellFormedDoc doc := by
  unfold readTree at h
  split at h
  · rename_i attrs ds
    simp only at h
    split at h
    · cases h
    · rename_i ps hps
      cases h
      obtain ⟨h1, h2⟩ := root_raw (by simp) hps
      refine ⟨hv, ?_, by simpa using h1⟩
      rw [wellFormedPkgs_iff]
      intro p hp
      obtain ⟨k, hk, hkp⟩ := h2 p hp
      obtain ⟨x, hx, hk⟩ := List.mem_flatMap.1 hk
      have hx := (List.mem_filter.1 hx).1
      have hk := (List.mem_filter.1 hk).1
      obtain ⟨d, hd, tl', h'⟩ := pkids_mem hx
      cases d with
      | text s => rw [pden] at h'; cases h'
      | elem t' as' ds' =>
        rw [pden] at h'
        split at h'
        · cases h'
          obtain ⟨d2, hd2, tl2, h2⟩ := pkids_mem hk
          exact (pden_good stop _ d2 (Nat.lt_succ_self _) tl2 k h2).2 p hkp
            (writablePkgs_mem hw p hp)
        · cases h'
  · cases h

theorem text_good {stop : Bool} {version : Nat} {text : List Char} {doc : Document}
    (h : readDoc stop version text = .ok doc) (hv : 50 ≤ doc.schemaVersion)
    (hw : writablePkgs doc.packages = true) : WellFormedDoc doc := by
  unfold readDoc at h
  split at h
  · exact doc_good h hv hw
  · cases h

/-! ### Twice -/

theorem canon_canon (n : PyNum) : canonNum (canonNum n) = canonNum n := by
  cases n with
  | float f =>
    cases f with
    | fin neg c e =>
      by_cases h1 : c = 0
      · simp [canonNum, h1]
      · by_cases h2 : 0 ≤ e <;> simp [canonNum, h1, h2]
    | _ => rfl
  | _ => rfl

theorem cut_norm (f : Field Cls) (b : Bool) (v : Val Cls) :
    normVal tables b (f.cut v) = f.cut (normVal tables b v) := by
  unfold Field.cut
  cases f.shape <;> cases v <;> first
    | rfl
    | (simp [normVal]; done)
    | (rename_i vs; cases vs <;> simp [normVal, normList])

theorem cut_cut (f : Field Cls) (v : Val Cls) : f.cut (f.cut v) = f.cut v := by
  unfold Field.cut
  cases f.shape <;> cases v <;> first
    | rfl
    | (rename_i vs; cases vs <;> rfl)

theorem cutAt_norm (s : List (Field Cls)) (k : String) (b : Bool) (v : Val Cls) :
    normVal tables b (cutAt s k v) = cutAt s k (normVal tables b v) := by
  unfold cutAt
  cases fieldOf s k with
  | none => rfl
  | some f => exact cut_norm f b v

theorem cutAt_cutAt (s : List (Field Cls)) (k : String) (v : Val Cls) :
    cutAt s k (cutAt s k v) = cutAt s k v := by
  unfold cutAt
  cases fieldOf s k with
  | none => rfl
  | some f => exact cut_cut f v

mutual
theorem norm_norm (b : Bool) : ∀ v : Val Cls,
    normVal tables b (normVal tables b v) = normVal tables b v
  | .num n => by
    simp only [normVal]
    cases b <;> simp [canon_canon]
  | .limit n m => by simp [normVal, canon_canon]
  | .list vs => by simp [normVal, norm_normList b vs]
  | .obj c fs => by simp [normVal, norm_normFields c fs]
  | .str s => by simp [normVal]
  | .bool x => by simp [normVal]
  | .numval n => by simp [normVal]
  | .enum m => by simp [normVal]
  | .ref r => by simp [normVal]
theorem norm_normList (b : Bool) : ∀ vs : List (Val Cls),
    normList tables b (normList tables b vs) = normList tables b vs
  | [] => rfl
  | v :: vs => by simp only [normList, norm_norm b v, norm_normList b vs]
theorem norm_normFields (c : Cls) : ∀ fs : List (String × Val Cls),
    normFields tables c (normFields tables c fs) = normFields tables c fs
  | [] => rfl
  | (k, v) :: fs => by
    rw [normFields]
    split
    · exact norm_normFields c fs
    · rename_i h
      rw [normFields, if_neg h, norm_normFields c fs, cutAt_norm, norm_norm, cutAt_cutAt]
end

theorem mandatory_kept : ∀ n < 186, ((mandatory (Cls.ofNat n)).all fun k =>
    decide (k ∉ lossy (Cls.ofNat n))) = true := by decide +kernel

theorem mandatory_not_lost {c : Cls} {k : String} (h : k ∈ mandatory c) : k ∉ lossy c := by
  have h1 := mandatory_kept c.ctorIdx (by cases c <;> decide)
  rw [Cls.ofNat_ctorIdx] at h1
  simpa using List.all_eq_true.1 h1 k h

theorem short_canon {n : PyNum} (h : shortNum n = true) : shortNum (canonNum n) = true := by
  cases n with
  | float f =>
    cases f with
    | fin neg c e =>
      simp only [canonNum]
      split
      · rfl
      · split
        · rfl
        · exact h
    | _ => exact h
  | _ => exact h

theorem notStr_norm (b : Bool) (v : Val Cls) : notStr (normVal tables b v) = notStr v := by
  cases v <;> simp [normVal, notStr]

theorem attrWritable_norm {c : Cls} {k : String} {v : Val Cls} (b : Bool)
    (h : attrWritable c k v = true) : attrWritable c k (normVal tables b v) = true := by
  simp only [attrWritable, Bool.and_eq_true] at h ⊢
  cases v with
  | list vs =>
    simp only [normVal] at h ⊢
    refine ⟨⟨h.1.1, ?_⟩, h.2⟩
    cases hk : decide (k ≠ "parts") with
    | true => rfl
    | false =>
      have h' := h.1.2
      rw [hk, Bool.false_or] at h'
      rw [Bool.false_or, normList_map, ← List.map_tail, List.all_map]
      rw [List.all_eq_true] at h' ⊢
      intro v hv
      simpa [notStr_norm] using h' v hv
  | _ => simpa only [normVal] using h

theorem attrWritable_cut {c : Cls} {k : String} {v : Val Cls} (s : List (Field Cls))
    (h : attrWritable c k v = true) : attrWritable c k (cutAt s k v) = true := by
  unfold cutAt
  split
  · unfold Field.cut
    split
    · simp only [attrWritable, Bool.and_eq_true] at h ⊢
      refine ⟨⟨h.1.1, ?_⟩, h.2⟩
      simp
    · exact h
  · exact h

theorem writable_cut {k : String} {v : Val Cls} (s : List (Field Cls))
    (h : writable v = true) : writable (cutAt s k v) = true := by
  unfold cutAt
  split
  · unfold Field.cut
    split
    · simp only [writable, writableList, Bool.and_eq_true] at h ⊢
      exact ⟨h.1, trivial⟩
    · exact h
  · exact h

theorem normFields_keys (c : Cls) (fs : List (String × Val Cls)) {k : String} (hk : k ∉ lossy c)
    (h : k ∈ fs.map (·.1)) : k ∈ (normFields tables c fs).map (·.1) := by
  obtain ⟨p, hp, rfl⟩ := List.mem_map.1 h
  rw [normFields_map]
  refine List.mem_map.2 ⟨(p.1, _), List.mem_filter.2 ⟨List.mem_map.2 ⟨p, hp, rfl⟩, ?_⟩, rfl⟩
  have : tables.lost c = lossy c := rfl
  simpa [this] using hk

mutual
theorem writable_norm (b : Bool) : ∀ v : Val Cls, writable v = true →
    writable (normVal tables b v) = true
  | .num n, h => by
    simp only [writable] at h
    simp only [normVal, writable]
    cases b with
    | true => simpa using short_canon h
    | false => simpa using h
  | .limit n m, h => by
    simp only [writable] at h
    simp only [normVal, writable]
    exact short_canon h
  | .list vs, h => by
    simp only [writable] at h
    simp only [normVal, writable]
    exact writable_normList b vs h
  | .obj c fs, h => by
    simp only [writable, Bool.and_eq_true] at h
    simp only [normVal, writable, Bool.and_eq_true]
    refine ⟨?_, writable_normFields c fs h.2⟩
    rw [List.all_eq_true] at h ⊢
    intro k hk
    have := h.1 k hk
    rw [decide_eq_true_eq] at this ⊢
    exact normFields_keys c fs (mandatory_not_lost hk) this
  | .str s, h => by simpa [normVal] using h
  | .bool x, h => by simp [normVal, writable]
  | .numval n, h => by simp [normVal, writable]
  | .enum m, h => by simp [normVal, writable]
  | .ref r, h => by simpa [normVal] using h
theorem writable_normList (b : Bool) : ∀ vs : List (Val Cls), writableList vs = true →
    writableList (normList tables b vs) = true
  | [], _ => rfl
  | v :: vs, h => by
    simp only [writableList, Bool.and_eq_true] at h
    rw [normList, writableList, writable_norm b v h.1, writable_normList b vs h.2]
    rfl
theorem writable_normFields (c : Cls) : ∀ fs : List (String × Val Cls), writableFields c fs = true →
    writableFields c (normFields tables c fs) = true
  | [], _ => rfl
  | (k, v) :: fs, h => by
    simp only [writableFields, Bool.and_eq_true] at h
    rw [normFields]
    split
    · exact writable_normFields c fs h.2
    · rw [writableFields, writable_cut _ (writable_norm _ v h.1.1),
        attrWritable_cut _ (attrWritable_norm _ h.1.2), writable_normFields c fs h.2]
      rfl
end

mutual
theorem norm_normPkg : ∀ p : Pkg, normPkg (normPkg p) = normPkg p
  | .mk head es ps => by
    simp only [normPkg, norm_normFields, norm_normPkgs ps, List.map_map, Pkg.mk.injEq, true_and,
      and_true]
    exact List.map_congr_left fun v _ => norm_norm false v
theorem norm_normPkgs : ∀ ps : List Pkg, normPkgs (normPkgs ps) = normPkgs ps
  | [] => rfl
  | p :: ps => by rw [normPkgs, normPkgs, norm_normPkg p, norm_normPkgs ps]
end

mutual
theorem writable_normPkg : ∀ p : Pkg, writablePkg p = true → writablePkg (normPkg p) = true
  | .mk head es ps, h => by
    simp only [writablePkg, Bool.and_eq_true] at h
    simp only [normPkg, writablePkg, Bool.and_eq_true]
    refine ⟨⟨?_, ?_⟩, writable_normPkgs ps h.2⟩
    · simpa [normVal] using writable_norm false _ h.1.1
    · rw [← normList_map]
      exact writable_normList false es h.1.2
theorem writable_normPkgs : ∀ ps : List Pkg, writablePkgs ps = true →
    writablePkgs (normPkgs ps) = true
  | [], _ => rfl
  | p :: ps, h => by
    simp only [writablePkgs, Bool.and_eq_true] at h
    rw [normPkgs, writablePkgs, writable_normPkg p h.1, writable_normPkgs ps h.2]
    rfl
end

/-- A well-formed document is read as what is left of it. -/
theorem doc_norm (skip stop : Bool) (version : Nat) {doc : Document} (h : WellFormedDoc doc) :
    ∃ text, writeDoc skip doc = .ok text ∧ readDoc stop version text =
      .ok ⟨if skip then version else doc.schemaVersion, normPkgs doc.packages⟩ := by
  obtain ⟨h1, h2, h3⟩ := h
  obtain ⟨hl, hd⟩ := looseAll_of _ h2
  obtain ⟨text, w, r, -⟩ := doc_rt skip stop version (doc := doc) ⟨h1, hl, h3⟩
  have r := r (.inr hd)
  rw [firstsAll_distinct _ hd] at r
  exact ⟨text, w, r⟩

end Verif.Codec.Load
