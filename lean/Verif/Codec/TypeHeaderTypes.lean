import Verif.Codec.TypeHeaderSpec
import Verif.Codec.TypeHeaderEnv
import Verif.Impl.HeaderLemmas
/-
From the types of the workspace, as the implementation model sees them, to those of the document.
-/
set_option linter.unusedSimpArgs false
namespace Verif.Codec.TypeHeader
open Verif.Py Verif.Impl Verif.Impl.Spec Verif.Codec Verif.Codec.Find Verif.Codec.FindSpec
open Verif.Codec.Spec Verif.Pkg.Spec Verif.Codec.TypeHeaderSpec
open Verif.Codec.Owner (shortName refMethod clsOf)

theorem lookup_dict {β : Type} (fs : List (String × β)) (a : String) : dictGet fs a = fs.lookup a := by
  induction fs with
  | nil => rfl
  | cons p fs ih =>
    obtain ⟨k, w⟩ := p
    simp only [dictGet, List.lookup_cons]
    by_cases h : k = a
    · simp [h]
    · have : ¬ a = k := fun e => h e.symm
      simp [h, beq_eq_false_iff_ne.2 this, ih]

theorem attr_field (v : Val Cls) (a : String) : attr v a = field v a := by
  cases v <;> simp [attr, field, lookup_dict]

theorem str_says {v : Val Cls} {a s : String} : strOf (attr v a) = some s ↔ Says v a s := by
  rw [attr_field, Says]
  cases field v a with
  | none => simp [strOf]
  | some w => cases w <;> simp [strOf]

theorem name_says {v : Val Cls} {n : String} (h : elemName v = some n) :
    Says v "name" n ∧ shortName v = n := by
  cases v with
  | obj c fs =>
    simp only [elemName, Codec.nameOf] at h
    split at h
    · next s hs =>
      cases h
      exact ⟨by rw [Says, field, ← lookup_dict]; exact hs, by simp [shortName, hs]⟩
    · cases h
  | _ => cases h

theorem members_parts (v : Val Cls) : Parts v (members v "sub_elements") := by
  cases v with
  | obj c fs =>
    simp only [Parts, members, field, lookup_dict]
    split
    · next l h => exact .inl h
    · next h => exact .inr ⟨fun m hm => h m hm, rfl⟩
  | _ => exact .inr ⟨by simp [field], rfl⟩

theorem first_ref {v : Val Cls} {p : Props} {ps : List Props} (h : allProps v = some (p :: ps)) :
    (∀ r, p.baseRef = some r → RefersTo v "base_type_ref" r) ∧
    (∀ r, p.implRef = some r → RefersTo v "impl_data_type_ref" r) := by
  unfold allProps at h
  rw [attr_field] at h
  cases hv : field v "sw_data_def_props" with
  | none => rw [hv] at h; cases h
  | some w =>
    rw [hv] at h
    cases w with
    | obj c fs =>
      cases c with
      | SwDataDefProps =>
        simp only [variants, Option.map_some, Option.some.injEq, members, lookup_dict] at h
        cases hl : fs.lookup "variants" with
        | none => rw [hl] at h; cases h
        | some u =>
          rw [hl] at h
          cases u with
          | list l =>
            cases l with
            | nil => cases h
            | cons x xs =>
              simp only [List.map_cons, List.cons.injEq] at h
              obtain ⟨rfl, -⟩ := h
              have key : ∀ a r, refOf (attr x a) = some r → RefersTo v a r := by
                intro a r hr
                rw [attr_field] at hr
                cases hx : field x a with
                | none => rw [hx] at hr; cases hr
                | some z =>
                  rw [hx] at hr
                  cases z with
                  | ref y => exact ⟨fs, x, xs, y, hv, hl, hx, by simpa [refOf] using hr⟩
                  | _ => cases hr
              exact ⟨fun r hr => key _ r hr, fun r hr => key _ r hr⟩
          | _ => cases h
      | _ => cases h
    | _ => cases h

theorem typeOf_base {ref r n : String} {native : Option String} {v : Val Cls}
    (h : typeOf ref v = .ok (.base r n native)) : IsBase v ∧ r = ref ∧ n = shortName v ∧
      native = strOf (attr v "native_declaration") := by
  unfold typeOf at h
  split at h
  · cases h; exact ⟨⟨_, rfl⟩, rfl, rfl, rfl⟩
  · cases h
  · split at h <;> cases h
  · cases h

theorem typeOf_impl {ref r n : String} {c s e : Option String} {p : Option (List Props)}
    {subs : List SubElem} {v : Val Cls} (h : typeOf ref v = .ok (.impl r n c s e p subs)) :
    IsImpl v ∧ r = ref ∧ n = shortName v ∧ c = strOf (attr v "category") ∧
      e = strOf (attr v "type_emitter") ∧ p = allProps v ∧
      subs = (members v "sub_elements").map subOf := by
  unfold typeOf at h
  split at h
  · cases h
  · cases h; exact ⟨⟨_, rfl⟩, rfl, rfl, rfl, rfl, rfl, rfl⟩
  · split at h <;> cases h
  · cases h

theorem base_impl {v : Val Cls} (h : IsBase v) (h' : IsImpl v) : False := by
  obtain ⟨_, rfl⟩ := h
  obtain ⟨_, h'⟩ := h'
  cases h'

theorem type_kind {ref : String} {v : Val Cls} {x : XElem} (h : typeOf ref v = .ok x)
    (hx : ¬ NoType x) : IsBase v ∨ IsImpl v := by
  cases x with
  | base r n native => exact .inl (typeOf_base h).1
  | impl r n c s e p subs => exact .inr (typeOf_impl h).1
  | other r c => exact absurd ⟨_, _, rfl⟩ hx

theorem foreign_iff {ref : String} {v : Val Cls} {x : XElem} (h : typeOf ref v = .ok x) :
    Elsewhere x ↔ Foreign v := by
  cases x with
  | base r n native =>
    obtain ⟨hb, -, -, rfl⟩ := typeOf_base h
    constructor
    · intro he
      refine .inl ⟨hb, fun s hs => ?_⟩
      rw [← str_says] at hs
      rw [hs] at he
      cases he
      rfl
    · rintro (⟨-, hs⟩ | ⟨hi, -⟩)
      · cases hn : strOf (attr v "native_declaration") with
        | none => exact .baseNone _ _
        | some s =>
          rw [hs s (str_says.1 hn)]
          exact .baseEmpty _ _
      · exact (base_impl hb hi).elim
  | impl r n c s e p subs =>
    obtain ⟨hi, -, -, -, rfl, -, -⟩ := typeOf_impl h
    constructor
    · intro he
      generalize hem : strOf (attr v "type_emitter") = em at he
      cases he with
      | impl _ _ _ _ e _ _ hr => exact .inr ⟨hi, e, str_says.1 hem, hr⟩
    · rintro (⟨hb, -⟩ | ⟨-, e, he, hr⟩)
      · exact (base_impl hb hi).elim
      · rw [str_says.2 he]
        exact .impl _ _ _ _ _ _ _ hr
  | other r c =>
    constructor
    · intro he; cases he
    · intro hf
      have : IsBase v ∨ IsImpl v := hf.imp (·.1) (·.1)
      rcases this with ⟨fs, rfl⟩ | ⟨fs, rfl⟩ <;> cases h

/-- A type found by a text. -/
theorem env_type {ps : List Pkg} (hw : WellFormedPkgs ps) {r : String} {x : XElem}
    (h : envOf ps r = some x) (hx : ¬ NoType x) :
    ∃ way v, ElementAt ps way v ∧ typeOf (absRef way) v = .ok x ∧ LeadsTo ps r v ∧
      x.ref = absRef way := by
  obtain ⟨y, hl, hf⟩ := get_of h
  have ht : There ps [] y := locatePkgs_there [] ps _ y hw (by
    simpa using not_mem_partL_fst '/' (stripLead '/' r.toList)) hl
  cases y with
  | pkg way p => cases hf; exact absurd ⟨_, _, rfl⟩ hx
  | element way v =>
    obtain ⟨ns, e, ha, -⟩ := ht
    simp only [List.nil_append] at e
    subst e
    refine ⟨_, v, ha, hf, ?_, typeOf_ref hf⟩
    have := locate_find ps r
    rw [hl] at this
    exact this.symm
  | part way v u => exact absurd (partOf_noType hf).1 hx

theorem not_noType_base {r n : String} {native : Option String} : ¬ NoType (.base r n native) := by
  rintro ⟨_, _, h⟩; cases h

theorem not_noType_impl {r n : String} {c s e : Option String} {p : Option (List Props)}
    {subs : List SubElem} : ¬ NoType (.impl r n c s e p subs) := by
  rintro ⟨_, _, h⟩; cases h

theorem ctype_type {env : Env} {x : XElem} {t : Ty} (h : CType env x t) : ¬ NoType x := by
  cases h with
  | elsewhere h => cases h <;> first | exact not_noType_base | exact not_noType_impl
  | base => exact not_noType_base
  | value => exact not_noType_impl
  | typeRef => exact not_noType_impl
  | array => exact not_noType_impl
  | record => exact not_noType_impl

/-- Sub-elements have names. -/
theorem element_wf {ps : List Pkg} (hw : WellFormedPkgs ps) {way : List String} {v : Val Cls}
    (h : ElementAt ps way v) : ∃ c, WellFormed c v := by
  cases h with
  | @mk p way m v hp hv hm =>
    have hwp : WellFormedPkg p := by
      clear hv hm
      induction hp with
      | here h1 _ => exact wf_mem hw h1
      | inside h1 _ _ ih => exact ih (wf_parts (wf_mem hw h1)).2
    cases p with
    | mk hd es qs =>
      rw [WellFormedPkg] at hwp
      obtain ⟨c, -, hc⟩ := hwp.2.1 v hv
      exact ⟨c, hc⟩

theorem part_name {s : Val Cls} (h : hasS tables s (.cls .ImplementationDataTypeElement) = true) :
    Says s "name" (shortName s) := by
  cases s with
  | obj c fs =>
    simp only [hasS, Bool.and_eq_true, decide_eq_true_eq] at h
    obtain ⟨⟨rfl, ho⟩, hf⟩ := h
    have hn : "name" ∈ fs.map (·.1) := by
      simp only [orderOk, Bool.and_eq_true, List.all_eq_true] at ho
      have hex : ∃ f ∈ tables.schema .ImplementationDataTypeElement, f.req = true ∧ f.attr = "name" := by
        decide +kernel
      obtain ⟨f, h1, h2, h3⟩ := hex
      have := ho.2 f h1
      rw [h2, h3] at this
      simpa using this
    obtain ⟨w, hw⟩ : ∃ w, dictGet fs "name" = some w := by
      clear ho hf
      induction fs with
      | nil => simp at hn
      | cons p fs ih =>
        obtain ⟨k, u⟩ := p
        by_cases hk : k = "name"
        · exact ⟨u, by simp [dictGet, hk]⟩
        · have : "name" ∈ fs.map (·.1) := by
            rcases List.mem_cons.1 hn with h | h
            · exact absurd h.symm hk
            · exact h
          obtain ⟨w, hw⟩ := ih this
          exact ⟨w, by simp [dictGet, hk, hw]⟩
    obtain ⟨f, h1, h2⟩ := hasFields_get hf hw
    have hff : (fieldOf (tables.schema .ImplementationDataTypeElement) "name").map
        (fun f => (f.shape, f.alts)) = some (.one, [.str]) := by decide +kernel
    rw [h1, Option.map_some, Option.some.injEq, Prod.mk.injEq] at hff
    simp only [hasField, hff.1, hff.2, List.any_cons, List.any_nil, Bool.or_false] at h2
    cases w with
    | str t => simp only [Says, field, ← lookup_dict, hw, shortName]
    | num n => cases n <;> simp [hasS] at h2
    | numval n => obtain ⟨n, f⟩ := n; simp [hasS] at h2
    | _ => simp [hasS] at h2
  | num n => cases n <;> simp [hasS] at h
  | numval n => obtain ⟨n, f⟩ := n; simp [hasS] at h
  | _ => simp [hasS] at h

theorem sub_named {ps : List Pkg} (hw : WellFormedPkgs ps) {way : List String} {v s : Val Cls}
    (h : ElementAt ps way v) (hi : IsImpl v) (hs : s ∈ members v "sub_elements") :
    Says s "name" (shortName s) := by
  obtain ⟨c, hc⟩ := element_wf hw h
  obtain ⟨fs, rfl⟩ := hi
  have h1 := hc.1
  cases Classical.em (c = .ImplementationDataType) with
  | inr hne => simp [hasS, Ne.symm hne] at h1
  | inl he =>
    subst he
    simp only [hasS, Bool.and_eq_true] at h1
    simp only [members] at hs
    split at hs
    · next l hl =>
      obtain ⟨f, hf, hv⟩ := hasFields_get h1.2 hl
      have hff : (fieldOf (tables.schema .ImplementationDataType) "sub_elements").map
        (fun f => (f.shape, f.alts)) = some (.many none, [.cls .ImplementationDataTypeElement]) := by
        decide +kernel
      rw [hf, Option.map_some, Option.some.injEq, Prod.mk.injEq] at hff
      simp only [hasField, hff.1, hff.2, Bool.and_eq_true] at hv
      obtain ⟨a, ha, hsa⟩ := (hasList_iff _ _ _).1 hv.2 s hs
      simp only [List.mem_singleton] at ha
      subst ha
      exact part_name hsa
    · cases hs

theorem elem_named {ps : List Pkg} {way : List String} {v : Val Cls} (h : ElementAt ps way v) :
    Says v "name" (shortName v) := by
  cases h with
  | mk _ _ hm =>
    obtain ⟨h1, h2⟩ := name_says hm
    rw [h2]; exact h1

/-! ### C types -/

theorem subs_one {v : Val Cls} {s : SubElem} (h : [s] = (members v "sub_elements").map subOf) :
    ∃ w, members v "sub_elements" = [w] ∧ s = subOf w ∧ Parts v [w] := by
  have hp := members_parts v
  cases hm : members v "sub_elements" with
  | nil => rw [hm] at h; cases h
  | cons w ws =>
    rw [hm] at h hp
    cases ws with
    | nil =>
      simp only [List.map_cons, List.map_nil, List.cons.injEq, and_true] at h
      exact ⟨w, rfl, h, hp⟩
    | cons => cases h

theorem size_of {w : Val Cls} {size : Nat} (h : (subOf w).arraySize = some size) :
    ∃ i : Int, field w "array_size" = some (.num (.int i)) ∧ i.toNat = size := by
  simp only [subOf] at h
  rw [attr_field] at h
  cases hf : field w "array_size" with
  | none => rw [hf] at h; cases h
  | some u =>
    rw [hf] at h
    cases u with
    | num n =>
      cases n with
      | int i => exact ⟨i, rfl, by simpa [natOf] using h⟩
      | float => cases h
    | _ => cases h

theorem name_of_type {ref : String} {v : Val Cls} {x : XElem} (hx : typeOf ref v = .ok x)
    (hno : ¬ NoType x) : XElem.name x = shortName v := by
  cases x with
  | base => exact (typeOf_base hx).2.2.1
  | impl => exact (typeOf_impl hx).2.2.1
  | other => exact absurd ⟨_, _, rfl⟩ hno

/-- The C type of a type of the workspace is that of the element of the document. -/
theorem doc_type {ps : List Pkg} (hw : WellFormedPkgs ps) {outside : String → Bool}
    (hfit : DocFit ps outside) {x : XElem} {t : Ty} (h : CType (envOf ps) x t) :
    ∀ (way : List String) (v : Val Cls), ElementAt ps way v → typeOf (absRef way) v = .ok x →
      DocType ps v t := by
  refine CType.rec
    (motive_1 := fun x t _ => ∀ (way : List String) (v : Val Cls), ElementAt ps way v →
      typeOf (absRef way) v = .ok x → DocType ps v t)
    (motive_2 := fun s t _ => ∀ w : Val Cls, s = subOf w → DocPart ps w t)
    (motive_3 := fun subs ts _ => ∀ l : List (Val Cls), subs = l.map subOf →
      (∀ s ∈ l, Says s "name" (shortName s)) → DocParts ps l ts)
    ?_ ?_ ?_ ?_ ?_ ?_ ?_ ?_ ?_ ?_ h
  · intro x he way v ha hx
    rw [name_of_type hx (ctype_type (env := envOf ps) (.elsewhere he))]
    exact .foreign ((foreign_iff hx).1 he) (elem_named ha)
  · intro r n native hne way v ha hx
    obtain ⟨hb, -, -, hs⟩ := typeOf_base hx
    exact .base hb (str_says.1 hs.symm) hne
  · intro r n sym em p _ subs q y t hno hq hy ht ih way v ha hx
    obtain ⟨hi, -, -, hc, -, hp, -⟩ := typeOf_impl hx
    obtain ⟨way', y', ha', hx', hl, -⟩ := env_type hw hy (ctype_type ht)
    exact .value hi (fun h => hno ((foreign_iff hx).2 h)) (str_says.1 hc.symm)
      ((first_ref hp.symm).1 _ hq) hl (ih way' y' ha' hx')
  · intro r n sym em p _ subs q y t hno hq hy ht ih way v ha hx
    obtain ⟨hi, -, -, hc, -, hp, -⟩ := typeOf_impl hx
    obtain ⟨way', y', ha', hx', hl, -⟩ := env_type hw hy (ctype_type ht)
    exact .typeRef hi (fun h => hno ((foreign_iff hx).2 h)) (str_says.1 hc.symm)
      ((first_ref hp.symm).2 _ hq) hl (ih way' y' ha' hx')
  · intro r n sym em props s size t hno hsize ht ih way v ha hx
    obtain ⟨hi, -, -, hc, -, -, hs⟩ := typeOf_impl hx
    obtain ⟨w, hm, rfl, hp⟩ := subs_one hs
    obtain ⟨i, h1, h2⟩ := size_of hsize
    have hc := str_says.1 hc.symm
    have := hfit.arrays ha hi hc hp i h1
    refine .array hi (fun h => hno ((foreign_iff hx).2 h)) hc hp ?_ (ih w rfl)
    rw [h1, ← h2]
    congr 3
    omega
  · intro r n sym em props subs ts hno ht ih way v ha hx
    obtain ⟨hi, -, hn, hc, -, -, hs⟩ := typeOf_impl hx
    rw [hn]
    exact .struct hi (fun h => hno ((foreign_iff hx).2 h)) (str_says.1 hc.symm) (elem_named ha)
      (members_parts v) (ih _ hs fun s hm => sub_named hw ha hi hm)
  · intro s p _ q y t hc hp hq hy ht ih w hs
    subst hs
    obtain ⟨way', y', ha', hx', hl, -⟩ := env_type hw hy (ctype_type ht)
    exact .value (str_says.1 hc) ((first_ref hp).1 _ hq) hl (ih way' y' ha' hx')
  · intro s p _ q y t hc hp hq hy ht ih w hs
    subst hs
    obtain ⟨way', y', ha', hx', hl, -⟩ := env_type hw hy (ctype_type ht)
    exact .typeRef (str_says.1 hc) ((first_ref hp).2 _ hq) hl (ih way' y' ha' hx')
  · intro l h _
    cases l with
    | nil => exact .nil
    | cons => cases h
  · intro s ss t ts ht hts ih1 ih2 l h hn
    cases l with
    | nil => cases h
    | cons w l =>
      simp only [List.map_cons, List.cons.injEq] at h
      obtain ⟨h1, h2⟩ := h
      subst h1
      exact .cons (hn w (by simp)) (ih1 w rfl) (ih2 l h2 fun s hs => hn s (by simp [hs]))

/-! ### What C asks for -/

theorem doc_fit {ps : List Pkg} (hw : WellFormedPkgs ps) {outside : String → Bool}
    (hfit : DocFit ps outside) : CFit (envOf ps) outside ∧ OwnRefs (envOf ps) := by
  refine ⟨⟨?_, ?_, ?_, ?_⟩, ?_⟩
  · intro q r n sym em props s h hz
    obtain ⟨way, v, ha, hx, -, -⟩ := env_type hw h not_noType_impl
    obtain ⟨hi, -, -, hc, -, -, hs⟩ := typeOf_impl hx
    obtain ⟨w, hm, rfl, hp⟩ := subs_one hs
    obtain ⟨i, h1, h2⟩ := size_of hz
    have := hfit.arrays ha hi (str_says.1 hc.symm) hp i h1
    omega
  · intro q r n sym em props subs h
    obtain ⟨way, v, ha, hx, -, -⟩ := env_type hw h not_noType_impl
    obtain ⟨hi, -, -, hc, -, -, hs⟩ := typeOf_impl hx
    obtain ⟨h1, h2⟩ := hfit.structs ha hi (str_says.1 hc.symm) (members_parts v)
    subst hs
    refine ⟨by simpa using h1, ?_⟩
    rw [List.map_map, List.nodup_iff_pairwise_ne, List.pairwise_map]
    refine h2.imp_of_mem ?_
    intro a b hma hmb hab he
    simp only [Function.comp, subOf] at he
    exact hab (shortName a) ⟨sub_named hw ha hi hma, he ▸ sub_named hw ha hi hmb⟩
  · intro q r n s h hs
    obtain ⟨way, v, ha, hx, -, -⟩ := env_type hw h not_noType_base
    obtain ⟨hb, -, -, hn⟩ := typeOf_base hx
    exact hfit.native ha hb (str_says.1 hn.symm) hs
  · intro q x h he
    have hno : ¬ NoType x := by
      cases he <;> first | exact not_noType_base | exact not_noType_impl
    obtain ⟨way, v, ha, hx, -, -⟩ := env_type hw h hno
    rw [name_of_type hx hno]
    exact hfit.foreign ha ((foreign_iff hx).1 he) (elem_named ha)
  · intro q r n sym e props subs h
    obtain ⟨way, v, ha, hx, -, -⟩ := env_type hw h not_noType_impl
    obtain ⟨hi, -, -, hc, he, -, -⟩ := typeOf_impl hx
    by_cases hr : SpellsRte e
    · exact hr
    · exact absurd (.inr ⟨hi, e, str_says.1 he.symm, hr⟩)
        (hfit.refs ha hi (str_says.1 hc.symm))

end Verif.Codec.TypeHeader
