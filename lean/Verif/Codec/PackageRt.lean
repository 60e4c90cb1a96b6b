import Verif.Codec.PackageSpec
import Verif.Codec.Roundtrip
/-
Lemmas: packages are read back as they were written.
-/
set_option linter.unusedSectionVars false
set_option linter.unusedSimpArgs false
namespace Verif.Codec
open Verif.Py Verif.Num Verif.Xml Verif.Xml.Spec Verif.Codec.Spec

/-! ### Elements of packages as the reader sees them -/

/-- `qs` are the elements `xs` as the package reader sees them, at some depth. -/
inductive PDens (stop : Bool) : List Xml → List PDen → Prop
  | nil : PDens stop [] []
  | cons {x : Xml} {q : PDen} {xs : List Xml} {qs : List PDen} (d : Nat)
      (tail : Option String) (h : pden stop tail (domOf d x) = some q) (hs : PDens stop xs qs) :
      PDens stop (x :: xs) (q :: qs)

theorem pden_some (stop : Bool) (tail : Option String) (d : Nat) (x : Xml) :
    ∃ q, pden stop tail (domOf d x) = some q := by
  cases x <;> exact ⟨_, rfl⟩

theorem pden_den {stop : Bool} {tail : Option String} {d : Nat} {x : Xml} {q : PDen}
    (h : pden stop tail (domOf d x) = some q) :
    rden tables tail (domOf d x) = some q.den ∧ q.pkg = readPackage stop q.den q.kids := by
  obtain ⟨k, hk⟩ := rden_some tables tail d x
  cases x <;>
  · simp only [domOf] at h hk
    rw [pden] at h
    simp only [hk, Option.some.injEq] at h
    subst h
    simp only [domOf]
    exact ⟨hk, rfl⟩

theorem pdens_kids (stop : Bool) (d : Nat) (xs : List Xml) (w : String) :
    PDens stop xs (pdenKids stop (domKids d xs ++ [.text w])) := by
  induction xs with
  | nil =>
    simp only [domKids, List.nil_append, pdenKids, pden]
    exact .nil
  | cons x xs ih =>
    simp only [domKids, List.cons_append]
    rw [pdenKids]
    simp only [pden]
    rw [pdenKids]
    obtain ⟨k, hk⟩ := pden_some stop (leadText (domKids d xs ++ [.text w])) d x
    rw [hk]
    exact .cons d _ hk ih

theorem pden_node {stop : Bool} {tail : Option String} {d : Nat} {tag : String}
    {as : List (String × String)} {ks : List Xml} {q : PDen}
    (h : pden stop tail (domOf d (.node tag as ks)) = some q) : PDens stop ks q.kids := by
  obtain ⟨k, hk⟩ := rden_some tables tail d (.node tag as ks)
  simp only [domOf] at h hk
  rw [pden] at h
  simp only [hk, Option.some.injEq] at h
  subst h
  exact pdens_kids stop (d + 1) ks (ws d)

theorem pden_tag {stop : Bool} {tail : Option String} {d : Nat} {x : Xml} {q : PDen}
    (h : pden stop tail (domOf d x) = some q) : q.tag = xtag x := rden_tag (pden_den h).1

theorem pdens_dens {stop : Bool} {xs : List Xml} {qs : List PDen} (h : PDens stop xs qs) :
    Dens tables xs (qs.map PDen.den) := by
  induction h with
  | nil => exact .nil
  | cons d tail h hs ih => exact .cons d tail (pden_den h).1 ih

theorem pdens_filter {stop : Bool} (p : String → Bool) {xs : List Xml} {qs : List PDen}
    (h : PDens stop xs qs) :
    PDens stop (xs.filter fun x => p (xtag x)) (qs.filter fun q => p q.tag) := by
  induction h with
  | nil => exact .nil
  | cons d tail h hs ih =>
    simp only [List.filter_cons, pden_tag h]
    split
    · exact .cons d tail h ih
    · exact ih

theorem pdens_all {stop : Bool} {t : String} {xs : List Xml} {qs : List PDen}
    (h : PDens stop xs qs) (ht : ∀ x ∈ xs, xtag x = t) : ∀ q ∈ qs, q.tag = t := by
  induction h with
  | nil => simp
  | cons d tail h hs ih =>
    intro q hq
    rcases List.mem_cons.1 hq with rfl | hq
    · rw [pden_tag h]; exact ht _ (by simp)
    · exact ih (fun x hx => ht x (by simp [hx])) q hq

theorem pdens_nil {stop : Bool} {qs : List PDen} (h : PDens stop [] qs) : qs = [] := by
  cases h; rfl

theorem pdens_one {stop : Bool} {x : Xml} {qs : List PDen} (h : PDens stop [x] qs) :
    ∃ q d tail, qs = [q] ∧ pden stop tail (domOf d x) = some q := by
  cases h with
  | cons d tail h hs =>
    cases hs
    exact ⟨_, d, tail, rfl, h⟩

theorem dens_append {xs ys : List Xml} {ks : List (RDen Cls RM)} (h : Dens tables (xs ++ ys) ks) :
    ∃ k1 k2, ks = k1 ++ k2 ∧ Dens tables xs k1 ∧ Dens tables ys k2 := by
  induction xs generalizing ks with
  | nil => exact ⟨[], ks, rfl, .nil, h⟩
  | cons x xs ih =>
    cases h with
    | cons d tail h hs =>
      obtain ⟨k1, k2, rfl, h1, h2⟩ := ih hs
      exact ⟨_ :: k1, k2, rfl, .cons d tail h h1, h2⟩

theorem dens_tags {xs : List Xml} {ks : List (RDen Cls RM)} (h : Dens tables xs ks) :
    ks.map RDen.tag = xs.map xtag := by
  induction h with
  | nil => rfl
  | cons d tail h hs ih => simp [rden_tag h, ih]

/-! ### Names -/

theorem names_kept : ∀ n < 186, "name" ∉ lossy (Cls.ofNat n) := by decide +kernel

theorem name_kept (c : Cls) : "name" ∉ lossy c := by
  have := names_kept c.ctorIdx (by cases c <;> decide)
  rwa [Cls.ofNat_ctorIdx] at this

theorem cut_str (f : Field Cls) (s : String) : f.cut (.str s) = .str s := by
  unfold Field.cut; split <;> simp_all

theorem cut_notStr {s : List (Field Cls)} {k : String} {v : Val Cls} (h : ∀ t, v ≠ .str t) (t : String) :
    cutAt s k v ≠ .str t := by
  unfold cutAt Field.cut
  split
  · split
    · simp
    · exact h t
  · exact h t

theorem cutAt_str (s : List (Field Cls)) (k t : String) : cutAt s k (.str t) = .str t := by
  unfold cutAt
  split
  · exact cut_str _ t
  · rfl

theorem norm_notStr {b : Bool} {v : Val Cls} (h : ∀ t, v ≠ .str t) (t : String) :
    normVal tables b v ≠ .str t := by
  cases v <;> simp [normVal] at h ⊢

theorem nameOf_norm (c : Cls) (fs : List (String × Val Cls)) :
    nameOf (normFields tables c fs) = nameOf fs := by
  induction fs with
  | nil => rfl
  | cons p fs ih =>
    obtain ⟨k, v⟩ := p
    rw [normFields]
    by_cases hk : k = "name"
    · subst hk
      rw [if_neg (show "name" ∉ tables.lost c from name_kept c)]
      by_cases hv : ∃ t, v = .str t
      · obtain ⟨t, rfl⟩ := hv
        simp [nameOf, dictGet, normVal, cutAt_str]
      · have hv : ∀ t, v ≠ .str t := fun t h => hv ⟨t, h⟩
        have h2 := cut_notStr (s := tables.schema c) (k := "name")
          (norm_notStr (b := numField (tables.schema c) "name") hv)
        generalize cutAt _ _ _ = u at h2
        simp only [nameOf, dictGet, if_true]
        cases v <;> simp at hv <;> cases u <;> simp at h2 <;> rfl
    · have hstep : ∀ (u : Val Cls) rest, nameOf ((k, u) :: rest) = nameOf rest := by
        intro u rest
        simp [nameOf, dictGet, Ne.symm hk, hk]
      rw [hstep v fs, ← ih]
      split
      · rfl
      · exact hstep _ _

theorem elemName_norm (b : Bool) (v : Val Cls) : elemName (normVal tables b v) = elemName v := by
  cases v with
  | obj c fs => simp only [normVal, elemName]; exact nameOf_norm c fs
  | _ => simp [normVal, elemName]

/-! ### Elements -/

/-- Elements of the class are written by a method the reader has a counterpart for. -/
def elemOk (c : Cls) : Bool :=
  match writerCollectable c with
  | none => false
  | some w =>
    match methTag tables w none with
    | none => false
    | some t =>
      match dictGet readerCollectable t with
      | none => false
      | some r => pairs.contains ⟨c, w, none, r⟩

theorem elems_ok : ∀ n < 186, (!isARElement (Cls.ofNat n) || elemOk (Cls.ofNat n)) = true := by
  decide +kernel

theorem elem_ok {c : Cls} (h : isARElement c = true) : elemOk c = true := by
  have := elems_ok c.ctorIdx (by cases c <;> decide)
  rw [Cls.ofNat_ctorIdx, h] at this
  simpa using this

theorem element_rt {c : Cls} (hc : isARElement c = true) {v : Val Cls} (h : WellFormed c v) :
    (∃ fs, v = .obj c fs) ∧ ∃ x r, writeElement v = .ok [x] ∧ Safe x ∧
      dictGet readerCollectable (xtag x) = some r ∧
      ∀ d tail k, rden tables tail (domOf d x) = some k →
        k.read r = .ok (normVal tables false v) := by
  have ho := elem_ok hc
  unfold elemOk at ho
  split at ho
  · simp at ho
  rename_i w hw
  split at ho
  · simp at ho
  rename_i t ht
  split at ho
  · simp at ho
  rename_i r hr
  have hp : (⟨c, w, none, r⟩ : Pair Cls WM RM) ∈ pairs := by simpa using ho
  obtain ⟨x, tag', h1, h2, h3, -, h4⟩ := all_good tables pairs tables_ok v _ hp h.1
  simp only at h1 h2 h4
  rw [ht] at h1
  obtain rfl : t = tag' := by simpa using h1
  have hx : Safe x := (all_safe tables tables_safe v h.2).2 w none [x] rfl h2 x (by simp)
  have hv : ∃ fs, v = .obj c fs := by
    cases v <;> simp [hasS, WellFormed] at h
    obtain ⟨⟨⟨rfl, -⟩, -⟩, -⟩ := h
    exact ⟨_, rfl⟩
  refine ⟨hv, x, r, ?_, hx, by rw [h3]; exact hr, h4⟩
  obtain ⟨fs, rfl⟩ := hv
  unfold writeElement writeWith
  simp only [hw]
  exact h2

theorem filter_names (acc : List (Option String)) (v : Val Cls) (l : List (Val Cls)) :
    (l.filter fun w => decide (elemName w ∉ acc ++ [elemName v])) =
      (l.filter fun w => decide (elemName w ≠ elemName v)).filter
        fun w => decide (elemName w ∉ acc) := by
  rw [List.filter_filter]
  apply List.filter_congr
  intro w _
  by_cases h1 : elemName w ∈ acc <;> by_cases h2 : elemName w = elemName v <;> simp [h1, h2]

theorem elements_rt (stop : Bool) : ∀ es : List (Val Cls),
    (∀ v ∈ es, ∃ c, isARElement c = true ∧ WellFormed c v) →
    ∃ xs, collect (es.map writeElement) = .ok xs ∧ (∀ x ∈ xs, Safe x) ∧
      ∀ ks, Dens tables xs ks → ∀ acc : List (Val Cls), (acc.map elemName).Nodup →
        readElements stop acc ks =
          if stop = true ∧ ¬ (acc.map elemName ++ es.map elemName).Nodup then
            .error .duplicateElement
          else .ok (acc ++ ((firstOfEach es).filter
            fun w => decide (elemName w ∉ acc.map elemName)).map (normVal tables false))
  | [], _ => by
    refine ⟨[], rfl, by simp, ?_⟩
    intro ks hk acc hn
    cases hk
    simp [readElements, hn, firstOfEach]
  | v :: es, h => by
    obtain ⟨c, hc, hv⟩ := h v (by simp)
    obtain ⟨⟨fs, rfl⟩, x, r, h1, h2, h3, h4⟩ := element_rt hc hv
    obtain ⟨xs, i1, i2, i3⟩ := elements_rt stop es (fun u hu => h u (by simp [hu]))
    refine ⟨x :: xs, by simp only [List.map_cons, collect, h1, i1, List.cons_append, List.nil_append],
      ?_, ?_⟩
    · intro y hy
      rcases List.mem_cons.1 hy with rfl | hy
      · exact h2
      · exact i2 y hy
    · intro ks hk acc hn
      cases hk with
      | cons d tail hk hs =>
        rename_i k ks
        rw [readElements, rden_tag hk, h3]
        simp only [h4 d tail k hk, normVal]
        rw [if_neg (by simp [hc])]
        have hnm : elemName (.obj c (normFields tables c fs)) = elemName (.obj c fs) :=
          elemName_norm false (.obj c fs)
        rw [hnm]
        by_cases hm : elemName (.obj c fs) ∈ acc.map elemName
        · rw [if_pos hm]
          have hnd : ¬ (acc.map elemName ++ (.obj c fs :: es).map elemName).Nodup := by
            intro hn'
            exact (List.nodup_append.1 hn').2.2 _ hm _ (by simp) rfl
          unfold report
          cases stop with
          | true => simp only [if_true]; rw [if_pos ⟨trivial, hnd⟩]
          | false =>
            rw [i3 ks hs acc hn]
            simp only [Bool.false_eq_true, if_false, false_and]
            rw [if_pos (by simp), firstOfEach, List.filter_cons_of_neg (by simpa using hm),
              ← filter_names]
            congr 4
            funext w
            simp only [List.mem_append, List.mem_singleton, decide_eq_decide]
            constructor
            · rintro a (b | b)
              · exact a b
              · rw [b] at a; exact a hm
            · exact fun a b => a (.inl b)
        · rw [if_neg hm, i3 ks hs]
          · simp only [List.map_append, List.map_cons, List.map_nil, hnm, List.append_assoc,
              List.singleton_append]
            split
            · rfl
            · rw [firstOfEach, List.filter_cons_of_pos (by simpa using hm), filter_names]
              simp [normVal]
          · simp only [List.map_append, List.map_cons, List.map_nil, hnm]
            rw [List.nodup_append]
            refine ⟨hn, by simp, ?_⟩
            rintro a ha b hb rfl
            simp only [List.mem_singleton] at hb
            subst hb
            exact hm ha

theorem firstOfEach_nodup {es : List (Val Cls)} (h : (es.map elemName).Nodup) :
    firstOfEach es = es := by
  induction es with
  | nil => rfl
  | cons v es ih =>
    simp only [List.map_cons, List.nodup_cons] at h
    rw [firstOfEach, ih h.2, List.filter_eq_self.2]
    intro w hw
    simp only [decide_eq_true_eq, ne_eq]
    intro he
    exact h.1 (he ▸ List.mem_map_of_mem hw)

theorem firstOfEach_names (es : List (Val Cls)) : ((firstOfEach es).map elemName).Nodup := by
  induction es with
  | nil => exact List.nodup_nil
  | cons v es ih =>
    rw [firstOfEach, List.map_cons, List.nodup_cons]
    refine ⟨?_, ih.sublist (List.filter_sublist.map _)⟩
    simp only [List.mem_map, List.mem_filter, decide_eq_true_eq, ne_eq, not_exists, not_and]
    rintro w ⟨-, hw⟩ h
    exact hw h

theorem firstOfEach_sub (es : List (Val Cls)) : (firstOfEach es).Sublist es := by
  induction es with
  | nil => exact .slnil
  | cons v es ih => exact (List.filter_sublist.trans ih).cons_cons v

theorem firstOfEach_mem (es : List (Val Cls)) (n : Option String) :
    n ∈ (firstOfEach es).map elemName ↔ n ∈ es.map elemName := by
  induction es with
  | nil => exact Iff.rfl
  | cons v es ih =>
    rw [firstOfEach, List.map_cons, List.map_cons, List.mem_cons, List.mem_cons, ← ih]
    by_cases hn : n = elemName v
    · simp [hn]
    · simp only [hn, false_or, List.mem_map, List.mem_filter, decide_eq_true_eq, ne_eq]
      constructor
      · rintro ⟨w, ⟨h1, -⟩, h2⟩
        exact ⟨w, h1, h2⟩
      · rintro ⟨w, h1, h2⟩
        exact ⟨w, ⟨h1, by rw [h2]; exact hn⟩, h2⟩

/-! ### The attributes of a package -/

/-- A reader method does not see children none of its statements looks at. -/
theorem runReader_more {c : Cls} {m : RM} {tag : String} {rs : List (RItem RM)}
    (hr : tables.rm m tag = .node c rs) (as : List (String × String)) (tx : Option String)
    {k1 k2 : List (RDen Cls RM)} (hb : ∀ ri ∈ rs, ∀ k ∈ k2, blind ri k.tag = true) :
    runReader tables m tag as tx (k1 ++ k2) = runReader tables m tag as tx k1 := by
  unfold runReader
  rw [hr]
  simp only
  have : rs.map (readItem as tx (k1 ++ k2)) = rs.map (readItem as tx k1) := by
    apply List.map_congr_left
    intro ri hri
    rw [← readItem_blind as tx (k1 ++ k2) ri, ← readItem_blind as tx k1 ri, List.filter_append]
    have : (k2.filter fun k => !blind ri k.tag) = [] := by
      rw [List.filter_eq_nil_iff]
      intro k hk
      simp [hb ri hri k hk]
    rw [this, List.append_nil]
  rw [this]

theorem header_blind : ∀ ri ∈ (Reader.referrable ++ Reader.multi_language_referrable ++
    Reader.identifiable : List (RItem RM)),
    blind ri "ELEMENTS" = true ∧ blind ri "AR-PACKAGES" = true := by decide +kernel

theorem header_tags : ((Writer.referrable ++ Writer.multilanguage_referrable ++
    Writer.identifiable : List (WItem Cls WM)).all fun wi => (itemTags tables wi).all fun t =>
      decide (t ≠ "ELEMENTS") && decide (t ≠ "AR-PACKAGES")) = true := by decide +kernel

theorem header_rt {head : List (String × Val Cls)}
    (h : WellFormed .Package (.obj .Package head)) :
    ∃ as ks, writeWith tables .package none (.obj .Package head) = .ok [.node "AR-PACKAGE" as ks] ∧
      Safe (.node "AR-PACKAGE" as ks) ∧
      (∀ x ∈ ks, xtag x ≠ "ELEMENTS" ∧ xtag x ≠ "AR-PACKAGES") ∧
      ∀ more : List Xml, (∀ x ∈ more, xtag x = "ELEMENTS" ∨ xtag x = "AR-PACKAGES") →
      ∀ d tail k, rden tables tail (domOf d (.node "AR-PACKAGE" as (ks ++ more))) = some k →
        k.read .package = .ok (.obj .Package (normFields tables .Package head)) := by
  have hp : (⟨.Package, .package, none, .package⟩ : Pair Cls WM RM) ∈ pairs := by decide +kernel
  have ho := tables_ok
  simp only [allOk, List.all_eq_true] at ho
  have hty := h.1
  simp only [hasS, Bool.and_eq_true, decide_eq_true_eq] at hty
  obtain ⟨⟨-, hor⟩, hf⟩ := hty
  have hG : ∀ k v, dictGet head k = some v → GoodF tables pairs v := by
    intro k u hu
    exact ⟨all_good tables pairs tables_ok u, fun vs _ w _ => all_good tables pairs tables_ok w⟩
  have hw : tables.wm .package none = .node (some .Package) (some "AR-PACKAGE") Writer.uuidAttr false
    (Writer.referrable ++ Writer.multilanguage_referrable ++ Writer.identifiable) := rfl
  have hr : tables.rm .package "AR-PACKAGE" = .node .Package
    (Reader.referrable ++ Reader.multi_language_referrable ++ Reader.identifiable) := rfl
  obtain ⟨as, ks, htag, a1, a2, k1, k2, kt, hall⟩ :=
    pair_node tables pairs (ho _ hp) (tag := "AR-PACKAGE") (by rfl) hw hr hor hf hG
  simp only at hall
  have hwr : writeWith tables .package none (.obj .Package head) =
      .ok [.node "AR-PACKAGE" as ks] := by
    unfold writeWith
    rw [wden_write_obj]
    unfold runWriter
    simp only [hw, htag, a1, k1]
    rw [if_neg, if_neg (by simp)]
    rw [isInst_obj]
    decide +kernel
  refine ⟨as, ks, hwr, (all_safe tables tables_safe _ h.2).2 .package none _ rfl hwr _ (by simp),
    ?_, ?_⟩
  · intro x hx
    obtain ⟨wi, hwi, hm⟩ := kt x hx
    have := header_tags
    simp only [List.all_eq_true, Bool.and_eq_true, decide_eq_true_eq] at this
    exact this wi hwi _ hm
  · intro more hm d tail k hk
    obtain ⟨e1, e2, e3⟩ := rden_node hk
    rw [rden_read hk, e1, e2]
    obtain ⟨q1, q2, hq, d1, d2⟩ := dens_append e3
    rw [hq, runReader_more hr]
    · exact hall _ _ d1
    · intro ri hri k hk
      have ht : k.tag ∈ more.map xtag := by rw [← dens_tags d2]; exact List.mem_map_of_mem hk
      obtain ⟨x, hx, he⟩ := List.mem_map.1 ht
      have := header_blind ri hri
      rcases hm x hx with h' | h'
      · rw [← he, h']; exact this.1
      · rw [← he, h']; exact this.2

/-! ### Packages -/

mutual
/-- The package that is read back. -/
def normPkg : Pkg → Pkg
  | .mk head es ps =>
    .mk (normFields tables .Package head) (es.map (normVal tables false)) (normPkgs ps)
def normPkgs : List Pkg → List Pkg
  | [] => []
  | p :: ps => normPkg p :: normPkgs ps
end

theorem name_norm (p : Pkg) : (normPkg p).name = p.name := by
  cases p with
  | mk h es ps => simp only [normPkg, Pkg.name, Pkg.head, nameOf_norm]

theorem childP_block {stop : Bool} {t : String} {xs : List Xml} {qs : List PDen}
    (h : PDens stop xs qs) {y : Xml} (hy : (xs.filter fun x => xtag x = t) = [y]) :
    ∃ q d tail, childP t qs = some q ∧ pden stop tail (domOf d y) = some q := by
  have h' := pdens_filter (fun s => decide (s = t)) h
  rw [hy] at h'
  obtain ⟨q, d, tail, hq, hd⟩ := pdens_one h'
  exact ⟨q, d, tail, by unfold childP; rw [hq]; rfl, hd⟩

theorem childP_none {stop : Bool} {t : String} {xs : List Xml} {qs : List PDen}
    (h : PDens stop xs qs) (hy : (xs.filter fun x => xtag x = t) = []) : childP t qs = none := by
  have h' := pdens_filter (fun s => decide (s = t)) h
  rw [hy] at h'
  unfold childP
  rw [pdens_nil h']
  rfl

theorem block_tag {tag : String} {xs : List Xml} {b : Bool} : ∀ x ∈ block tag xs b, xtag x = tag := by
  intro x hx
  unfold block at hx
  split at hx
  · simp at hx
  · simp only [List.mem_singleton] at hx; subst hx; rfl

mutual
theorem pkg_rt (stop : Bool) : ∀ p : Pkg, AnyPkg p →
    ∃ x, writePkg p = .ok x ∧ Safe x ∧ xtag x = "AR-PACKAGE" ∧
      ∀ d tail q, pden stop tail (domOf d x) = some q →
        (ReadablePkg stop p → q.pkg = .ok (normPkg (firstsPkg p))) ∧
        (¬ ReadablePkg stop p → q.pkg = .error .duplicateElement)
  | .mk head es ps, h => by
    obtain ⟨hh, he, hps⟩ := h
    obtain ⟨as, ks, w1, w2, w3, w4⟩ := header_rt hh
    obtain ⟨xs, e1, e2, e3⟩ := elements_rt stop es he
    obtain ⟨ys, p1, p2, p3⟩ := pkgs_rt stop ps hps
    have hsafe := w2
    rw [Safe] at hsafe
    obtain ⟨s1, s2, s3⟩ := hsafe
    refine ⟨.node "AR-PACKAGE" as (ks ++ (block "ELEMENTS" xs es.isEmpty ++
      block "AR-PACKAGES" ys ps.isEmpty)), ?_, ?_, rfl, ?_⟩
    · rw [writePkg, w1]
      simp only [e1, p1]
    · rw [Safe]
      refine ⟨s1, s2, ?_⟩
      rw [safeAll_iff] at s3 ⊢
      intro x hx
      have hb : ∀ (t : String) (zs : List Xml) (b : Bool), Name t → (∀ z ∈ zs, Safe z) →
          x ∈ block t zs b → Safe x := by
        intro t zs b ht hz hx
        unfold block at hx
        split at hx
        · simp at hx
        · simp only [List.mem_singleton] at hx
          subst hx
          rw [Safe]
          exact ⟨ht, SafeAttrs.nil, (safeAll_iff zs).2 hz⟩
      rcases List.mem_append.1 hx with hx | hx
      · exact s3 x hx
      · rcases List.mem_append.1 hx with hx | hx
        · exact hb _ _ _ ⟨by decide, by decide⟩ e2 hx
        · exact hb _ _ _ ⟨by decide, by decide⟩ (fun z hz => (p2 z hz).1) hx
    · intro d tail q hq
      obtain ⟨q1, q2⟩ := pden_den hq
      have q3 := pden_node hq
      have hk1 : ∀ t, t = "ELEMENTS" ∨ t = "AR-PACKAGES" →
          (ks.filter fun x => decide (xtag x = t)) = [] := by
        intro t ht
        rw [List.filter_eq_nil_iff]
        intro x hx
        rcases ht with rfl | rfl
        · simpa using (w3 x hx).1
        · simpa using (w3 x hx).2
      rw [q2]
      unfold readPackage
      rw [w4 _ _ d tail _ q1]
      · simp only
        have hel : readElementsOf stop q.kids =
            if stop = true ∧ ¬ (es.map elemName).Nodup then .error .duplicateElement
            else .ok ((firstOfEach es).map (normVal tables false)) := by
          unfold readElementsOf
          cases es with
          | nil =>
            rw [childP_none q3]
            · simp [firstOfEach]
            · rw [List.filter_append, hk1 _ (.inl rfl)]
              simp only [List.isEmpty_nil, block, if_true, List.nil_append]
              rw [List.filter_eq_nil_iff]
              intro x hx
              split at hx
              · simp at hx
              · simp only [List.mem_singleton] at hx; subst hx; simp [xtag]
          | cons v es =>
            obtain ⟨z, d', tail', hc, hz⟩ := childP_block (t := "ELEMENTS") q3
              (y := .node "ELEMENTS" [] xs) (by
                rw [List.filter_append, hk1 _ (.inl rfl), List.filter_append]
                have : (List.filter (fun x => decide (xtag x = "ELEMENTS"))
                    (block "AR-PACKAGES" ys ps.isEmpty)) = [] := by
                  rw [List.filter_eq_nil_iff]
                  intro x hx
                  rw [block_tag x hx]; decide
                rw [this]
                simp [block, xtag])
            rw [hc]
            simp only
            rw [e3 _ (pdens_dens (pden_node hz)) [] (by simp)]
            have hall : ((firstOfEach (v :: es)).filter
                fun w => decide (elemName w ∉ ([] : List (Val Cls)).map elemName)) =
                firstOfEach (v :: es) := by
              rw [List.filter_eq_self]; simp
            rw [hall]
            simp
        have hnames : ((firstOfEach es).map (normVal tables false)).map elemName =
            (firstOfEach es).map elemName := by
          rw [List.map_map]
          exact List.map_congr_left (fun v _ => elemName_norm false v)
        have htaken : ((firstOfEach es).map elemName ++ ps.map Pkg.name).Nodup ↔
            (ps.map Pkg.name).Nodup ∧ ∀ p ∈ ps, p.name ∉ es.map elemName := by
          rw [List.nodup_append]
          constructor
          · rintro ⟨-, h1, h2⟩
            exact ⟨h1, fun p hp hm => h2 _ ((firstOfEach_mem es _).2 hm) _
              (List.mem_map_of_mem hp) rfl⟩
          · rintro ⟨h1, h2⟩
            refine ⟨firstOfEach_names es, h1, ?_⟩
            rintro a ha b hb rfl
            obtain ⟨p, hp, rfl⟩ := List.mem_map.1 hb
            exact h2 p hp ((firstOfEach_mem es _).1 ha)
        have hsub : (ps = [] ∧ childP "AR-PACKAGES" q.kids = none) ∨
            ∃ z, childP "AR-PACKAGES" q.kids = some z ∧
              (z.kids.filter fun k => decide (k.tag = "AR-PACKAGE")) = z.kids ∧
              PDens stop ys z.kids := by
          cases ps with
          | nil =>
            refine .inl ⟨rfl, childP_none q3 ?_⟩
            rw [List.filter_append, hk1 _ (.inr rfl), List.filter_append]
            simp only [block, List.isEmpty_nil, if_true, List.filter_nil, List.append_nil,
              List.nil_append]
            rw [List.filter_eq_nil_iff]
            intro x hx
            split at hx
            · simp at hx
            · simp only [List.mem_singleton] at hx; subst hx; simp [xtag]
          | cons p ps =>
            obtain ⟨z, d', tail', hc, hz⟩ := childP_block (t := "AR-PACKAGES") q3
              (y := .node "AR-PACKAGES" [] ys) (by
                rw [List.filter_append, hk1 _ (.inr rfl), List.filter_append]
                have : (List.filter (fun x => decide (xtag x = "AR-PACKAGES"))
                    (block "ELEMENTS" xs es.isEmpty)) = [] := by
                  rw [List.filter_eq_nil_iff]
                  intro x hx
                  rw [block_tag x hx]; decide
                rw [this]
                simp [block, xtag])
            have hz' := pden_node hz
            refine .inr ⟨z, hc, ?_, hz'⟩
            rw [List.filter_eq_self]
            intro k hk
            simp [pdens_all hz' (fun y hy => (p2 y hy).2) k hk]
        rw [hel]
        refine ⟨fun hd => ?_, fun hd => ?_⟩
        · obtain ⟨r1, r2, r3, r4⟩ := hd
          rw [if_neg (fun h => h.2 (r1 h.1))]
          simp only [hnames]
          rcases hsub with ⟨rfl, hc⟩ | ⟨z, hc, hfil, hz⟩
          · rw [hc]
            simp [normPkg, normPkgs, firstsPkg, firstsPkgs]
          · rw [hc]
            simp only
            rw [hfil, (p3 z.kids hz _ (firstOfEach_names es)).1 ⟨r4, htaken.2 ⟨r2, r3⟩⟩]
            simp [normPkg, firstsPkg]
        · by_cases hes : stop = true ∧ ¬ (es.map elemName).Nodup
          · rw [if_pos hes]
          · rw [if_neg hes]
            simp only [hnames]
            have hes' : stop = true → (es.map elemName).Nodup :=
              fun h => Classical.byContradiction fun h' => hes ⟨h, h'⟩
            have hps' : ¬ (ReadablePkgs stop ps ∧
                ((firstOfEach es).map elemName ++ ps.map Pkg.name).Nodup) :=
              fun h => hd ⟨hes', (htaken.1 h.2).1, (htaken.1 h.2).2, h.1⟩
            rcases hsub with ⟨rfl, hc⟩ | ⟨z, hc, hfil, hz⟩
            · exact absurd ⟨trivial, by simpa using firstOfEach_names es⟩ hps'
            · rw [hc]
              simp only
              rw [hfil, (p3 z.kids hz _ (firstOfEach_names es)).2.1 hps']
      · intro x hx
        rcases List.mem_append.1 hx with hx | hx
        · exact .inl (block_tag x hx)
        · exact .inr (block_tag x hx)
theorem pkgs_rt (stop : Bool) : ∀ ps : List Pkg, AnyPkgs ps →
    ∃ xs, writePkgs ps = .ok xs ∧ (∀ x ∈ xs, Safe x ∧ xtag x = "AR-PACKAGE") ∧
      ∀ qs, PDens stop xs qs → ∀ taken : List (Option String), taken.Nodup →
        (ReadablePkgs stop ps ∧ (taken ++ ps.map Pkg.name).Nodup →
          readSubs taken qs = .ok (normPkgs (firstsPkgs ps))) ∧
        (¬ (ReadablePkgs stop ps ∧ (taken ++ ps.map Pkg.name).Nodup) →
          readSubs taken qs = .error .duplicateElement) ∧
        (ReadablePkgs stop ps → (taken ++ ps.map Pkg.name).Nodup →
          readRoot taken qs = .ok (normPkgs (firstsPkgs ps))) ∧
        (ReadablePkgs stop ps → ¬ (taken ++ ps.map Pkg.name).Nodup →
          readRoot taken qs = .error .valueError) ∧
        (¬ ReadablePkgs stop ps → (taken ++ ps.map Pkg.name).Nodup →
          readRoot taken qs = .error .duplicateElement) ∧
        (¬ ReadablePkgs stop ps → readRoot taken qs = .error .duplicateElement ∨
          readRoot taken qs = .error .valueError)
  | [], _ => by
    refine ⟨[], by simp [writePkgs], by simp, ?_⟩
    intro qs hq taken ht
    cases hq
    have h1 : ReadablePkgs stop [] := trivial
    simp [readSubs, readRoot, normPkgs, firstsPkgs, ht, h1]
  | p :: ps, h => by
    obtain ⟨h1, h2⟩ := h
    obtain ⟨x, a1, a2, a3, a4⟩ := pkg_rt stop p h1
    obtain ⟨xs, b1, b2, b3⟩ := pkgs_rt stop ps h2
    refine ⟨x :: xs, by simp only [writePkgs, a1, b1], ?_, ?_⟩
    · intro y hy
      rcases List.mem_cons.1 hy with rfl | hy
      · exact ⟨a2, a3⟩
      · exact b2 y hy
    · intro qs hq taken ht
      cases hq with
      | cons d tail hq hs =>
        rename_i q qs
        obtain ⟨c1, c2⟩ := a4 d tail q hq
        have hname : (normPkg (firstsPkg p)).name = p.name := by
          rw [name_norm]; cases p; rfl
        by_cases hp : ReadablePkg stop p
        · rw [readSubs, readRoot, c1 hp]
          simp only [hname]
          by_cases hm : p.name ∈ taken
          · have hn : ¬ (taken ++ (p :: ps).map Pkg.name).Nodup := fun hn =>
              (List.nodup_append.1 hn).2.2 _ hm _ (by simp) rfl
            simp only [hm, hn, if_true]
            simp
          · have htk : (taken ++ [p.name]).Nodup := by
              rw [List.nodup_append]
              refine ⟨ht, by simp, ?_⟩
              rintro a ha b hb rfl
              simp only [List.mem_singleton] at hb
              subst hb
              exact hm ha
            have happ : taken ++ (p :: ps).map Pkg.name =
                taken ++ [p.name] ++ ps.map Pkg.name := by simp
            have hr : ReadablePkgs stop (p :: ps) ↔ ReadablePkgs stop ps :=
              ⟨fun h => h.2, fun h => ⟨hp, h⟩⟩
            obtain ⟨d1, d2, d3, d4, d5, d6⟩ := b3 qs hs _ htk
            rw [happ, hr, if_neg hm, if_neg hm]
            refine ⟨fun h => ?_, fun h => ?_, fun h h' => ?_, fun h h' => ?_, fun h h' => ?_,
              fun h => ?_⟩
            · rw [d1 h]; rfl
            · rw [d2 h]
            · rw [d3 h h']; rfl
            · rw [d4 h h']
            · rw [d5 h h']
            · rcases d6 h with h | h
              · rw [h]; exact .inl rfl
              · rw [h]; exact .inr rfl
        · have hr : ¬ ReadablePkgs stop (p :: ps) := fun h => hp h.1
          rw [readSubs, readRoot, c2 hp]
          simp [hr]
end

mutual
theorem any_of : ∀ p : Pkg, LoosePkg p →
    AnyPkg p ∧ ReadablePkg false p ∧ (ReadablePkg true p ↔ DistinctPkg p)
  | .mk h es ps, hl => by
    obtain ⟨h1, h2, h3, h4, h5⟩ := hl
    obtain ⟨i1, i2, i3⟩ := anyAll_of ps h5
    refine ⟨⟨h1, h2, i1⟩, ⟨by simp, h3, h4, i2⟩, ?_⟩
    exact ⟨fun r => ⟨r.1 rfl, i3.1 r.2.2.2⟩, fun r => ⟨fun _ => r.1, h3, h4, i3.2 r.2⟩⟩
theorem anyAll_of : ∀ ps : List Pkg, LoosePkgs ps →
    AnyPkgs ps ∧ ReadablePkgs false ps ∧ (ReadablePkgs true ps ↔ DistinctPkgs ps)
  | [], _ => ⟨trivial, trivial, Iff.rfl⟩
  | p :: ps, hl => by
    obtain ⟨i1, i2, i3⟩ := any_of p hl.1
    obtain ⟨j1, j2, j3⟩ := anyAll_of ps hl.2
    exact ⟨⟨i1, j1⟩, ⟨i2, j2⟩, fun r => ⟨i3.1 r.1, j3.1 r.2⟩, fun r => ⟨i3.2 r.1, j3.2 r.2⟩⟩
end

/-! ### The schema version -/

theorem search_skip (pre cs : List Char) (h : ∀ c ∈ pre, c ≠ 'A') :
    searchVersion (pre ++ cs) = searchVersion cs := by
  induction pre with
  | nil => rfl
  | cons c pre ih =>
    have hc : c ≠ 'A' := h c (by simp)
    rw [List.cons_append, searchVersion, ih (fun d hd => h d (by simp [hd]))]
    rw [if_neg (by
      show ¬ (List.isPrefixOf ['A', 'U', 'T', 'O', 'S', 'A', 'R', '_'] (c :: (pre ++ cs))) = true
      simp [List.isPrefixOf, Ne.symm hc])]

theorem digit_isDigit {d : Nat} (h : d < 10) : (Nat.digitChar d).isDigit = true := by
  have : ∀ d, d < 10 → (Nat.digitChar d).isDigit = true := by decide
  exact this d h

theorem pad5_digits (n : Nat) : ∀ c ∈ pad5 n, c.isDigit = true := by
  intro c hc
  simp only [pad5, List.mem_append, List.mem_replicate, decStr, List.mem_map] at hc
  rcases hc with ⟨-, rfl⟩ | ⟨d, hd, rfl⟩
  · decide
  · exact digit_isDigit (digs_lt n d hd)

theorem takeWhile_all {α : Type} {p : α → Bool} {a : List α} (h : ∀ x ∈ a, p x = true)
    {y : α} (hy : p y = false) (b : List α) :
    (a ++ y :: b).takeWhile p = a ∧ (a ++ y :: b).dropWhile p = y :: b := by
  induction a with
  | nil => simp [hy]
  | cons x a ih =>
    have hx := h x (by simp)
    obtain ⟨i1, i2⟩ := ih (fun z hz => h z (by simp [hz]))
    simp [hx, i1, i2]

theorem pad5_value (n : Nat) : ofDigs 10 ((pad5 n).map fun c => c.toNat - 48) = n := by
  have hz : ∀ (k : Nat) (l : List Nat), ofDigs 10 (List.replicate k 0 ++ l) = ofDigs 10 l := by
    intro k l
    induction k with
    | zero => rfl
    | succ k ih =>
      rw [List.replicate_succ, List.cons_append]
      show ofDigs 10 (List.replicate k 0 ++ l) = _
      exact ih
  have hd : (decStr n).map (fun c => c.toNat - 48) = digs n := by
    rw [decStr, List.map_map]
    conv => rhs; rw [← List.map_id (digs n)]
    apply List.map_congr_left
    intro d hd
    have : ∀ d, d < 10 → (Nat.digitChar d).toNat - 48 = d := by decide
    exact this d (digs_lt n d hd)
  rw [pad5, List.map_append, List.map_replicate, hd]
  rw [show ('0' : Char).toNat - 48 = 0 from rfl, hz, ofDigs_digs]

theorem digs_length (k n : Nat) (h : n < 10 ^ (k + 1)) : (digs n).length ≤ k + 1 := by
  induction k generalizing n with
  | zero =>
    rw [digs, if_pos (by omega)]
    simp
  | succ k ih =>
    rw [digs]
    split
    · simp
    · have := ih (n / 10) (by rw [Nat.pow_succ] at h; omega)
      simp only [List.length_append, List.length_singleton]
      omega

theorem toList_parts (a b d : String) (c : List Char) :
    (a ++ String.ofList (b.toList ++ c ++ d.toList)).toList =
      a.toList ++ (b.toList ++ (c ++ d.toList)) := by
  rw [String.toList_append, String.toList_ofList, List.append_assoc]

/-- The text of the schema location. -/
theorem location_toList (n : Nat) :
    ("http://autosar.org/schema/r4.0 " ++ schemaFile n).toList =
      "http://autosar.org/schema/r4.0 ".toList ++ ("AUTOSAR_".toList ++ (pad5 n ++ ".xsd".toList)) := by
  unfold schemaFile
  exact toList_parts _ _ _ _

theorem search_location (n : Nat) :
    searchVersion ("http://autosar.org/schema/r4.0 " ++ schemaFile n).toList = some (pad5 n) := by
  have hpre : ∀ c ∈ "http://autosar.org/schema/r4.0 ".toList, c ≠ 'A' := by decide +kernel
  rw [location_toList, search_skip _ _ hpre]
  have hne : pad5 n ≠ [] := by
    simp only [pad5, ne_eq, List.append_eq_nil_iff, not_and]
    exact fun _ => decStr_ne_nil n
  obtain ⟨t1, t2⟩ := takeWhile_all (pad5_digits n) (y := '.') (by decide) ['x', 's', 'd']
  have hv : versionHere (pad5 n ++ '.' :: ['x', 's', 'd']) = some (pad5 n) := by
    unfold versionHere
    simp only [t1, t2]
    simp [hne]
  show searchVersion ('A' :: ('U' :: 'T' :: 'O' :: 'S' :: 'A' :: 'R' :: '_' ::
    (pad5 n ++ '.' :: ['x', 's', 'd']))) = _
  rw [searchVersion, if_pos (by
    show List.isPrefixOf ['A', 'U', 'T', 'O', 'S', 'A', 'R', '_'] ('A' :: 'U' :: 'T' :: 'O' :: 'S' ::
      'A' :: 'R' :: '_' :: (pad5 n ++ '.' :: ['x', 's', 'd'])) = true
    simp [List.isPrefixOf])]
  simp only [List.drop_succ_cons, List.drop_zero, hv]

theorem root_version (skip : Bool) (version n : Nat) :
    readVersion version (rootAttrs skip n) = if skip then version else n := by
  cases skip with
  | true => rfl
  | false =>
    simp only [rootAttrs, Bool.false_eq_true, if_false, readVersion]
    have l1 : isLocation "xsi:schemaLocation" = true := by decide +kernel
    have l2 : isLocation "xmlns" = false := by decide +kernel
    have l3 : isLocation "xmlns:xsi" = false := by decide +kernel
    simp only [l1, l2, l3, Bool.false_eq_true, if_true, if_false, search_location]
    exact pad5_value n

theorem root_safe (skip : Bool) (n : Nat) : SafeAttrs (rootAttrs skip n) := by
  cases skip with
  | true => exact SafeAttrs.nil
  | false =>
    refine ⟨?_, by simp [rootAttrs]⟩
    intro a ha
    simp only [rootAttrs, Bool.false_eq_true, if_false, List.mem_cons, List.not_mem_nil,
      or_false] at ha
    rcases ha with rfl | rfl | rfl
    · refine ⟨⟨(by decide : "xsi:schemaLocation" ≠ ""),
        (by decide : ∀ c ∈ "xsi:schemaLocation".toList, isNameChar c = true)⟩, ?_⟩
      apply safeAttr_of
      unfold plainAttr
      rw [location_toList]
      simp only [List.all_append, Bool.and_eq_true]
      refine ⟨by decide, by decide, ?_, by decide⟩
      rw [List.all_eq_true]
      intro c hc
      simp only [pad5, List.mem_append, List.mem_replicate] at hc
      rcases hc with ⟨-, rfl⟩ | hc
      · decide
      · exact decStr_attr n c hc
    · exact ⟨⟨by decide, by decide⟩, safeAttr_of (by decide)⟩
    · exact ⟨⟨by decide, by decide⟩, safeAttr_of (by decide)⟩

/-! ### Documents -/

theorem doc_any (skip stop : Bool) (version : Nat) {doc : Document} (hp : AnyPkgs doc.packages) :
    ∃ text, writeDoc skip doc = .ok text ∧
      (ReadablePkgs stop doc.packages → (doc.packages.map Pkg.name).Nodup →
        readDoc stop version text =
        .ok ⟨if skip then version else doc.schemaVersion, normPkgs (firstsPkgs doc.packages)⟩) ∧
      (ReadablePkgs stop doc.packages → ¬ (doc.packages.map Pkg.name).Nodup →
        readDoc stop version text = .error .valueError) ∧
      (¬ ReadablePkgs stop doc.packages → (doc.packages.map Pkg.name).Nodup →
        readDoc stop version text = .error .duplicateElement) ∧
      (¬ ReadablePkgs stop doc.packages → readDoc stop version text = .error .duplicateElement ∨
        readDoc stop version text = .error .valueError) := by
  obtain ⟨xs, p1, p2, p3⟩ := pkgs_rt stop doc.packages hp
  let root : Xml := .node "AUTOSAR" (rootAttrs skip doc.schemaVersion)
    (block "AR-PACKAGES" xs doc.packages.isEmpty)
  have hsafe : Safe root := by
    show Safe (.node _ _ _)
    rw [Safe]
    refine ⟨⟨by decide, by decide⟩, root_safe skip _, ?_⟩
    rw [safeAll_iff]
    intro x hx
    unfold block at hx
    split at hx
    · simp at hx
    · simp only [List.mem_singleton] at hx
      subst hx
      rw [Safe]
      exact ⟨⟨by decide, by decide⟩, SafeAttrs.nil, (safeAll_iff xs).2 (fun x hx => (p2 x hx).1)⟩
  have hpd : parseDocument (xmlDecl ++ '\n' :: render 0 root) = some (domOf 0 root) := by
    unfold parseDocument
    rw [List.take_left', List.drop_left'] <;> try rfl
    rw [if_pos rfl]
    exact parse_render root hsafe ['\n'] (by simp)
  have hdom : domOf 0 root = .elem "AUTOSAR" (rootAttrs skip doc.schemaVersion)
      (domKids 1 (block "AR-PACKAGES" xs doc.packages.isEmpty) ++ [.text (ws 0)]) := by
    show domOf 0 (.node _ _ _) = _
    rw [domOf]
  have hk := pdens_kids stop 1 (block "AR-PACKAGES" xs doc.packages.isEmpty) (ws 0)
  have hnodes : ∃ qs, PDens stop xs qs ∧
      ((pdenKids stop (domKids 1 (block "AR-PACKAGES" xs doc.packages.isEmpty) ++
        [.text (ws 0)])).filter fun k => k.tag = "AR-PACKAGES").flatMap
        (fun k => k.kids.filter fun k => k.tag = "AR-PACKAGE") = qs := by
    generalize pdenKids stop _ = ks at hk
    cases hb : doc.packages.isEmpty with
    | true =>
      rw [hb] at hk
      cases hk
      have : doc.packages = [] := by simpa using hb
      rw [this, writePkgs] at p1
      cases p1
      exact ⟨[], .nil, rfl⟩
    | false =>
      rw [hb] at hk
      obtain ⟨q, d, tail, rfl, hq⟩ := pdens_one hk
      have hq' := pden_node hq
      refine ⟨q.kids, hq', ?_⟩
      have ht : q.tag = "AR-PACKAGES" := pden_tag hq
      have hfil : (q.kids.filter fun k => decide (k.tag = "AR-PACKAGE")) = q.kids := by
        rw [List.filter_eq_self]
        intro k hk
        simp [pdens_all hq' (fun y hy => (p2 y hy).2) k hk]
      simp [ht, hfil]
  obtain ⟨qs, hqs, hnodes⟩ := hnodes
  obtain ⟨-, -, r1, r2, r3, r4⟩ := p3 qs hqs [] List.nodup_nil
  simp only [List.nil_append] at r1 r2 r3
  have hread : ∀ r, readRoot [] qs = r → readDoc stop version (xmlDecl ++ '\n' :: render 0 root) =
      match r with
      | .error e => .error e
      | .ok ps => .ok ⟨if skip then version else doc.schemaVersion, ps⟩ := by
    rintro r rfl
    unfold readDoc
    rw [hpd, hdom]
    simp only [readTree, hnodes, root_version]
    cases readRoot [] qs <;> rfl
  refine ⟨xmlDecl ++ '\n' :: render 0 root, ?_, fun a b => hread _ (r1 a b),
    fun a b => hread _ (r2 a b), fun a b => hread _ (r3 a b),
    fun a => (r4 a).imp (hread _) (hread _)⟩
  unfold writeDoc
  rw [p1]
  exact Verif.Props.Xml.writeDocument_eq root

theorem doc_rt (skip stop : Bool) (version : Nat) {doc : Document} (h : LooseDoc doc) :
    ∃ text, writeDoc skip doc = .ok text ∧
      (stop = false ∨ DistinctPkgs doc.packages → readDoc stop version text =
        .ok ⟨if skip then version else doc.schemaVersion, normPkgs (firstsPkgs doc.packages)⟩) ∧
      (stop = true → ¬ DistinctPkgs doc.packages →
        readDoc stop version text = .error .duplicateElement) := by
  obtain ⟨-, hp, hn⟩ := h
  obtain ⟨h1, h2, h3⟩ := anyAll_of _ hp
  obtain ⟨text, w, r1, -, r3, -⟩ := doc_any skip stop version h1
  refine ⟨text, w, fun hd => r1 ?_ hn, fun hs hd => r3 ?_ hn⟩
  · cases stop with
    | false => exact h2
    | true => exact h3.2 (hd.resolve_left (by simp))
  · subst hs
    exact fun h => hd (h3.1 h)

/-! ### What is left -/

theorem same_elements (es : List (Val Cls)) :
    SameList (es.map remains) (es.map (normVal tables false)) := by
  induction es with
  | nil => exact .nil
  | cons v es ih => exact .cons (same_norm false v) ih

mutual
theorem same_pkg : ∀ p : Pkg, SamePkg (remainsPkg p) (normPkg p)
  | .mk h es ps => by
    rw [remainsPkg, normPkg]
    exact .mk (same_normFields .Package h) (same_elements es) (same_pkgs ps)
theorem same_pkgs : ∀ ps : List Pkg, SamePkgs (remainsPkgs ps) (normPkgs ps)
  | [] => .nil
  | p :: ps => .cons (same_pkg p) (same_pkgs ps)
end

mutual
theorem whole_pkg : ∀ p : Pkg, noWholePkg p = true → normPkg p = remainsPkg p
  | .mk h es ps, hw => by
    simp only [noWholePkg, Bool.and_eq_true, List.all_eq_true] at hw
    rw [remainsPkg, normPkg, norm_noWholeFields .Package h hw.1.1, whole_pkgs ps hw.2]
    congr 1
    exact List.map_congr_left (fun v hv => norm_noWhole false v (hw.1.2 v hv))
theorem whole_pkgs : ∀ ps : List Pkg, noWholePkgs ps = true → normPkgs ps = remainsPkgs ps
  | [], _ => rfl
  | p :: ps, hw => by
    simp only [noWholePkgs, Bool.and_eq_true] at hw
    rw [normPkgs, remainsPkgs, whole_pkg p hw.1, whole_pkgs ps hw.2]
end

theorem classOf_norm (b : Bool) (v : Val Cls) : classOf (normVal tables b v) = classOf v := by
  cases v <;> simp [normVal, classOf]

mutual
theorem outline_norm : ∀ p : Pkg, outline (normPkg p) = outline p
  | .mk h es ps => by
    rw [normPkg, outline, outline, nameOf_norm, outlines_norm ps, List.map_map]
    congr 1
    apply List.map_congr_left
    intro v _
    simp only [Function.comp, classOf_norm, elemName_norm]
theorem outlines_norm : ∀ ps : List Pkg, outlines (normPkgs ps) = outlines ps
  | [] => rfl
  | p :: ps => by rw [normPkgs, outlines, outlines, outline_norm p, outlines_norm ps]
end

mutual
theorem firsts_distinct : ∀ p : Pkg, DistinctPkg p → firstsPkg p = p
  | .mk h es ps, hd => by
    rw [firstsPkg, firstOfEach_nodup hd.1, firstsAll_distinct ps hd.2]
theorem firstsAll_distinct : ∀ ps : List Pkg, DistinctPkgs ps → firstsPkgs ps = ps
  | [], _ => rfl
  | p :: ps, hd => by rw [firstsPkgs, firsts_distinct p hd.1, firstsAll_distinct ps hd.2]
end

mutual
theorem loose_of : ∀ p : Pkg, WellFormedPkg p → LoosePkg p ∧ DistinctPkg p
  | .mk h es ps, hw => by
    obtain ⟨h1, h2, h3, h4⟩ := hw
    obtain ⟨i1, i2⟩ := looseAll_of ps h4
    rw [List.nodup_append] at h3
    exact ⟨⟨h1, h2, h3.2.1, fun p hp hm => h3.2.2 _ hm _ (List.mem_map_of_mem hp) rfl, i1⟩, h3.1, i2⟩
theorem looseAll_of : ∀ ps : List Pkg, WellFormedPkgs ps → LoosePkgs ps ∧ DistinctPkgs ps
  | [], _ => ⟨trivial, trivial⟩
  | p :: ps, hw =>
    ⟨⟨(loose_of p hw.1).1, (looseAll_of ps hw.2).1⟩, (loose_of p hw.1).2, (looseAll_of ps hw.2).2⟩
end

end Verif.Codec
