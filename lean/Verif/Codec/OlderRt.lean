import Verif.Codec.Older
import Verif.Codec.PackageRt
/-
Lemmas: with any tables whose writer and reader methods agree, packages are read back as they were
written.
-/
set_option linter.unusedSectionVars false
set_option linter.unusedSimpArgs false
namespace Verif.Codec.Older
open Verif.Py Verif.Num Verif.Xml Verif.Xml.Spec Verif.Codec.Spec

/-- Writer and reader methods agree, and packages are written and read as usual. -/
class Sound (T : Tables Cls WM RM) : Prop where
  ok : allOk T pairs = true
  safe : ∀ m arg, argSafe arg = true → methSafe xmlAttrs (T.wm m arg) = true
  name : ∀ c, "name" ∉ T.lost c
  tag : ∀ m arg, methTag T m arg = methTag tables m arg
  packageW : T.wm .package none = .node (some .Package) (some "AR-PACKAGE") Writer.uuidAttr false
    (Writer.referrable ++ Writer.multilanguage_referrable ++ Writer.identifiable)
  packageR : T.rm .package "AR-PACKAGE" = .node .Package
    (Reader.referrable ++ Reader.multi_language_referrable ++ Reader.identifiable)
  bases : Cls.Package ∈ T.mro .Package

/-- A well-formed object for the tables. -/
def Wf (T : Tables Cls WM RM) (c : Cls) (v : Val Cls) : Prop :=
  hasS T v (.cls c) = true ∧ plainVal xmlAttrs v = true

mutual
/-- A package whose own attributes and elements are well formed. -/
def AnyPkg (T : Tables Cls WM RM) : Pkg → Prop
  | .mk head elements packages =>
    Wf T .Package (.obj .Package head) ∧
    (∀ v ∈ elements, ∃ c, isARElement c = true ∧ Wf T c v) ∧ AnyPkgs T packages
def AnyPkgs (T : Tables Cls WM RM) : List Pkg → Prop
  | [] => True
  | p :: ps => AnyPkg T p ∧ AnyPkgs T ps
end

variable {T : Tables Cls WM RM} [Sound T]

/-- `qs` are the elements `xs` as the package reader sees them, at some depth. -/
inductive PDens (T : Tables Cls WM RM) (stop : Bool) : List Xml → List PDen → Prop
  | nil : PDens T stop [] []
  | cons {x : Xml} {q : PDen} {xs : List Xml} {qs : List PDen} (d : Nat)
      (tail : Option String) (h : pden T stop tail (domOf d x) = some q) (hs : PDens T stop xs qs) :
      PDens T stop (x :: xs) (q :: qs)

theorem pden_some (stop : Bool) (tail : Option String) (d : Nat) (x : Xml) :
    ∃ q, pden T stop tail (domOf d x) = some q := by
  cases x <;> exact ⟨_, rfl⟩

theorem pden_den {stop : Bool} {tail : Option String} {d : Nat} {x : Xml} {q : PDen}
    (h : pden T stop tail (domOf d x) = some q) :
    rden T tail (domOf d x) = some q.den ∧ q.pkg = readPackage stop q.den q.kids := by
  obtain ⟨k, hk⟩ := rden_some T tail d x
  cases x <;>
  · simp only [domOf] at h hk
    rw [pden] at h
    simp only [hk, Option.some.injEq] at h
    subst h
    simp only [domOf]
    exact ⟨hk, rfl⟩

theorem pdens_kids (stop : Bool) (d : Nat) (xs : List Xml) (w : String) :
    PDens T stop xs (pdenKids T stop (domKids d xs ++ [.text w])) := by
  induction xs with
  | nil =>
    simp only [domKids, List.nil_append, pdenKids, pden]
    exact .nil
  | cons x xs ih =>
    simp only [domKids, List.cons_append]
    rw [pdenKids]
    simp only [pden]
    rw [pdenKids]
    obtain ⟨k, hk⟩ := pden_some (T := T) stop (leadText (domKids d xs ++ [.text w])) d x
    rw [hk]
    exact .cons d _ hk ih

theorem pden_node {stop : Bool} {tail : Option String} {d : Nat} {tag : String}
    {as : List (String × String)} {ks : List Xml} {q : PDen}
    (h : pden T stop tail (domOf d (.node tag as ks)) = some q) : PDens T stop ks q.kids := by
  obtain ⟨k, hk⟩ := rden_some T tail d (.node tag as ks)
  simp only [domOf] at h hk
  rw [pden] at h
  simp only [hk, Option.some.injEq] at h
  subst h
  exact pdens_kids stop (d + 1) ks (ws d)

theorem pden_tag {stop : Bool} {tail : Option String} {d : Nat} {x : Xml} {q : PDen}
    (h : pden T stop tail (domOf d x) = some q) : q.tag = xtag x := rden_tag (pden_den h).1

theorem pdens_dens {stop : Bool} {xs : List Xml} {qs : List PDen} (h : PDens T stop xs qs) :
    Dens T xs (qs.map PDen.den) := by
  induction h with
  | nil => exact .nil
  | cons d tail h hs ih => exact .cons d tail (pden_den h).1 ih

theorem pdens_filter {stop : Bool} (p : String → Bool) {xs : List Xml} {qs : List PDen}
    (h : PDens T stop xs qs) :
    PDens T stop (xs.filter fun x => p (xtag x)) (qs.filter fun q => p q.tag) := by
  induction h with
  | nil => exact .nil
  | cons d tail h hs ih =>
    simp only [List.filter_cons, pden_tag h]
    split
    · exact .cons d tail h ih
    · exact ih

theorem pdens_all {stop : Bool} {t : String} {xs : List Xml} {qs : List PDen}
    (h : PDens T stop xs qs) (ht : ∀ x ∈ xs, xtag x = t) : ∀ q ∈ qs, q.tag = t := by
  induction h with
  | nil => simp
  | cons d tail h hs ih =>
    intro q hq
    rcases List.mem_cons.1 hq with rfl | hq
    · rw [pden_tag h]; exact ht _ (by simp)
    · exact ih (fun x hx => ht x (by simp [hx])) q hq

theorem pdens_nil {stop : Bool} {qs : List PDen} (h : PDens T stop [] qs) : qs = [] := by
  cases h; rfl

theorem pdens_one {stop : Bool} {x : Xml} {qs : List PDen} (h : PDens T stop [x] qs) :
    ∃ q d tail, qs = [q] ∧ pden T stop tail (domOf d x) = some q := by
  cases h with
  | cons d tail h hs =>
    cases hs
    exact ⟨_, d, tail, rfl, h⟩

theorem dens_append {xs ys : List Xml} {ks : List (RDen Cls RM)} (h : Dens T (xs ++ ys) ks) :
    ∃ k1 k2, ks = k1 ++ k2 ∧ Dens T xs k1 ∧ Dens T ys k2 := by
  induction xs generalizing ks with
  | nil => exact ⟨[], ks, rfl, .nil, h⟩
  | cons x xs ih =>
    cases h with
    | cons d tail h hs =>
      obtain ⟨k1, k2, rfl, h1, h2⟩ := ih hs
      exact ⟨_ :: k1, k2, rfl, .cons d tail h h1, h2⟩

theorem dens_tags {xs : List Xml} {ks : List (RDen Cls RM)} (h : Dens T xs ks) :
    ks.map RDen.tag = xs.map xtag := by
  induction h with
  | nil => rfl
  | cons d tail h hs ih => simp [rden_tag h, ih]

theorem norm_notStr {b : Bool} {v : Val Cls} (h : ∀ t, v ≠ .str t) (t : String) :
    normVal T b v ≠ .str t := by
  cases v <;> simp [normVal] at h ⊢

theorem nameOf_norm (c : Cls) (fs : List (String × Val Cls)) :
    nameOf (normFields T c fs) = nameOf fs := by
  induction fs with
  | nil => rfl
  | cons p fs ih =>
    obtain ⟨k, v⟩ := p
    rw [normFields]
    by_cases hk : k = "name"
    · subst hk
      rw [if_neg (show "name" ∉ T.lost c from Sound.name c)]
      by_cases hv : ∃ t, v = .str t
      · obtain ⟨t, rfl⟩ := hv
        simp [nameOf, dictGet, normVal, cutAt_str]
      · have hv : ∀ t, v ≠ .str t := fun t h => hv ⟨t, h⟩
        have h2 := cut_notStr (s := T.schema c) (k := "name")
          (norm_notStr (T := T) (b := numField (T.schema c) "name") hv)
        generalize cutAt _ _ _ = u at h2
        simp only [nameOf, dictGet, if_true]
        cases v <;> simp at hv <;> cases u <;> simp at h2 <;> rfl
    · have hstep : ∀ (u : Val Cls) rest, nameOf ((k, u) :: rest) = nameOf rest := by
        intro u rest
        simp [nameOf, dictGet, Ne.symm hk, hk]
      rw [hstep v fs, ← ih]
      split
      · rfl
      · exact hstep _ _

theorem elemName_norm (b : Bool) (v : Val Cls) : elemName (normVal T b v) = elemName v := by
  cases v with
  | obj c fs => simp only [normVal, elemName]; exact nameOf_norm c fs
  | _ => simp [normVal, elemName]

theorem element_rt {c : Cls} (hc : isARElement c = true) {v : Val Cls} (h : Wf T c v) :
    (∃ fs, v = .obj c fs) ∧ ∃ x r, writeElement T v = .ok [x] ∧ Safe x ∧
      dictGet readerCollectable (xtag x) = some r ∧
      ∀ d tail k, rden T tail (domOf d x) = some k →
        k.read r = .ok (normVal T false v) := by
  have ho := elem_ok hc
  unfold elemOk at ho
  split at ho
  · simp at ho
  rename_i w hw
  split at ho
  · simp at ho
  rename_i t ht
  split at ho
  · simp at ho
  rename_i r hr
  have hp : (⟨c, w, none, r⟩ : Pair Cls WM RM) ∈ pairs := by simpa using ho
  obtain ⟨x, tag', h1, h2, h3, -, h4⟩ := all_good T pairs Sound.ok v _ hp h.1
  simp only at h1 h2 h4
  rw [Sound.tag, ht] at h1
  obtain rfl : t = tag' := by simpa using h1
  have hx : Safe x := (all_safe T Sound.safe v h.2).2 w none [x] rfl h2 x (by simp)
  have hv : ∃ fs, v = .obj c fs := by
    cases v <;> simp [hasS, Wf] at h
    obtain ⟨⟨⟨rfl, -⟩, -⟩, -⟩ := h
    exact ⟨_, rfl⟩
  refine ⟨hv, x, r, ?_, hx, by rw [h3]; exact hr, h4⟩
  obtain ⟨fs, rfl⟩ := hv
  unfold writeElement writeWith
  simp only [hw]
  exact h2

theorem elements_rt (stop : Bool) : ∀ es : List (Val Cls),
    (∀ v ∈ es, ∃ c, isARElement c = true ∧ Wf T c v) →
    ∃ xs, collect (es.map (writeElement T)) = .ok xs ∧ (∀ x ∈ xs, Safe x) ∧
      ∀ ks, Dens T xs ks → ∀ acc : List (Val Cls), (acc.map elemName).Nodup →
        readElements stop acc ks =
          if stop = true ∧ ¬ (acc.map elemName ++ es.map elemName).Nodup then
            .error .duplicateElement
          else .ok (acc ++ ((firstOfEach es).filter
            fun w => decide (elemName w ∉ acc.map elemName)).map (normVal T false))
  | [], _ => by
    refine ⟨[], rfl, by simp, ?_⟩
    intro ks hk acc hn
    cases hk
    simp [readElements, hn, firstOfEach]
  | v :: es, h => by
    obtain ⟨c, hc, hv⟩ := h v (by simp)
    obtain ⟨⟨fs, rfl⟩, x, r, h1, h2, h3, h4⟩ := element_rt hc hv
    obtain ⟨xs, i1, i2, i3⟩ := elements_rt stop es (fun u hu => h u (by simp [hu]))
    refine ⟨x :: xs, by simp only [List.map_cons, collect, h1, i1, List.cons_append, List.nil_append],
      ?_, ?_⟩
    · intro y hy
      rcases List.mem_cons.1 hy with rfl | hy
      · exact h2
      · exact i2 y hy
    · intro ks hk acc hn
      cases hk with
      | cons d tail hk hs =>
        rename_i k ks
        rw [readElements, rden_tag hk, h3]
        simp only [h4 d tail k hk, normVal]
        rw [if_neg (by simp [hc])]
        have hnm : elemName (.obj c (normFields T c fs)) = elemName (.obj c fs) :=
          elemName_norm false (.obj c fs)
        rw [hnm]
        by_cases hm : elemName (.obj c fs) ∈ acc.map elemName
        · rw [if_pos hm]
          have hnd : ¬ (acc.map elemName ++ (.obj c fs :: es).map elemName).Nodup := by
            intro hn'
            exact (List.nodup_append.1 hn').2.2 _ hm _ (by simp) rfl
          unfold report
          cases stop with
          | true => simp only [if_true]; rw [if_pos ⟨trivial, hnd⟩]
          | false =>
            rw [i3 ks hs acc hn]
            simp only [Bool.false_eq_true, if_false, false_and]
            rw [if_pos (by simp), firstOfEach, List.filter_cons_of_neg (by simpa using hm),
              ← filter_names]
            congr 4
            funext w
            simp only [List.mem_append, List.mem_singleton, decide_eq_decide]
            constructor
            · rintro a (b | b)
              · exact a b
              · rw [b] at a; exact a hm
            · exact fun a b => a (.inl b)
        · rw [if_neg hm, i3 ks hs]
          · simp only [List.map_append, List.map_cons, List.map_nil, hnm, List.append_assoc,
              List.singleton_append]
            split
            · rfl
            · rw [firstOfEach, List.filter_cons_of_pos (by simpa using hm), filter_names]
              simp [normVal]
          · simp only [List.map_append, List.map_cons, List.map_nil, hnm]
            rw [List.nodup_append]
            refine ⟨hn, by simp, ?_⟩
            rintro a ha b hb rfl
            simp only [List.mem_singleton] at hb
            subst hb
            exact hm ha

/-- A reader method does not see children none of its statements looks at. -/
theorem runReader_more {c : Cls} {m : RM} {tag : String} {rs : List (RItem RM)}
    (hr : T.rm m tag = .node c rs) (as : List (String × String)) (tx : Option String)
    {k1 k2 : List (RDen Cls RM)} (hb : ∀ ri ∈ rs, ∀ k ∈ k2, blind ri k.tag = true) :
    runReader T m tag as tx (k1 ++ k2) = runReader T m tag as tx k1 := by
  unfold runReader
  rw [hr]
  simp only
  have : rs.map (readItem as tx (k1 ++ k2)) = rs.map (readItem as tx k1) := by
    apply List.map_congr_left
    intro ri hri
    rw [← readItem_blind as tx (k1 ++ k2) ri, ← readItem_blind as tx k1 ri, List.filter_append]
    have : (k2.filter fun k => !blind ri k.tag) = [] := by
      rw [List.filter_eq_nil_iff]
      intro k hk
      simp [hb ri hri k hk]
    rw [this, List.append_nil]
  rw [this]

theorem atomTag_eq (a : WAtom WM) : atomTag T a = atomTag tables a := by
  cases a <;> simp [atomTag, Sound.tag]

theorem itemTags_eq (wi : WItem Cls WM) : itemTags T wi = itemTags tables wi := by
  have h : (fun a : Test Cls × WAtom WM => atomTag T a.2) = fun a => atomTag tables a.2 :=
    funext fun a => atomTag_eq a.2
  cases wi <;> simp only [itemTags, h]

theorem header_rt {head : List (String × Val Cls)}
    (h : Wf T .Package (.obj .Package head)) :
    ∃ as ks, writeWith T .package none (.obj .Package head) = .ok [.node "AR-PACKAGE" as ks] ∧
      Safe (.node "AR-PACKAGE" as ks) ∧
      (∀ x ∈ ks, xtag x ≠ "ELEMENTS" ∧ xtag x ≠ "AR-PACKAGES") ∧
      ∀ more : List Xml, (∀ x ∈ more, xtag x = "ELEMENTS" ∨ xtag x = "AR-PACKAGES") →
      ∀ d tail k, rden T tail (domOf d (.node "AR-PACKAGE" as (ks ++ more))) = some k →
        k.read .package = .ok (.obj .Package (normFields T .Package head)) := by
  have hp : (⟨.Package, .package, none, .package⟩ : Pair Cls WM RM) ∈ pairs := by decide +kernel
  have ho := Sound.ok (T := T)
  simp only [allOk, List.all_eq_true] at ho
  have hty := h.1
  simp only [hasS, Bool.and_eq_true, decide_eq_true_eq] at hty
  obtain ⟨⟨-, hor⟩, hf⟩ := hty
  have hG : ∀ k v, dictGet head k = some v → GoodF T pairs v := by
    intro k u hu
    exact ⟨all_good T pairs Sound.ok u, fun vs _ w _ => all_good T pairs Sound.ok w⟩
  have hw : T.wm .package none = .node (some .Package) (some "AR-PACKAGE") Writer.uuidAttr false
    (Writer.referrable ++ Writer.multilanguage_referrable ++ Writer.identifiable) := Sound.packageW
  have hr : T.rm .package "AR-PACKAGE" = .node .Package
    (Reader.referrable ++ Reader.multi_language_referrable ++ Reader.identifiable) := Sound.packageR
  obtain ⟨as, ks, htag, a1, a2, k1, k2, kt, hall⟩ :=
    pair_node T pairs (ho _ hp) (tag := "AR-PACKAGE")
      (by show methTag T .package none = _; rw [Sound.tag]; rfl) hw hr hor hf hG
  simp only at hall
  have hwr : writeWith T .package none (.obj .Package head) =
      .ok [.node "AR-PACKAGE" as ks] := by
    unfold writeWith
    rw [wden_write_obj]
    unfold runWriter
    simp only [hw, htag, a1, k1]
    rw [if_neg, if_neg (by simp)]
    rw [isInst_obj]
    simp [Sound.bases]
  refine ⟨as, ks, hwr, (all_safe T Sound.safe _ h.2).2 .package none _ rfl hwr _ (by simp),
    ?_, ?_⟩
  · intro x hx
    obtain ⟨wi, hwi, hm⟩ := kt x hx
    have := header_tags
    simp only [List.all_eq_true, Bool.and_eq_true, decide_eq_true_eq] at this
    exact this wi hwi _ (by rw [← itemTags_eq (T := T)]; exact hm)
  · intro more hm d tail k hk
    obtain ⟨e1, e2, e3⟩ := rden_node hk
    rw [rden_read hk, e1, e2]
    obtain ⟨q1, q2, hq, d1, d2⟩ := dens_append e3
    rw [hq, runReader_more hr]
    · exact hall _ _ d1
    · intro ri hri k hk
      have ht : k.tag ∈ more.map xtag := by rw [← dens_tags d2]; exact List.mem_map_of_mem hk
      obtain ⟨x, hx, he⟩ := List.mem_map.1 ht
      have := header_blind ri hri
      rcases hm x hx with h' | h'
      · rw [← he, h']; exact this.1
      · rw [← he, h']; exact this.2

/-! ### Packages -/

mutual
/-- The package that is read back. -/
def normPkg (T : Tables Cls WM RM) : Pkg → Pkg
  | .mk head es ps =>
    .mk (normFields T .Package head) (es.map (normVal T false)) (normPkgs T ps)
def normPkgs (T : Tables Cls WM RM) : List Pkg → List Pkg
  | [] => []
  | p :: ps => normPkg T p :: normPkgs T ps
end

theorem name_norm (p : Pkg) : (normPkg T p).name = p.name := by
  cases p with
  | mk h es ps => simp only [normPkg, Pkg.name, Pkg.head, nameOf_norm]

theorem childP_block {stop : Bool} {t : String} {xs : List Xml} {qs : List PDen}
    (h : PDens T stop xs qs) {y : Xml} (hy : (xs.filter fun x => xtag x = t) = [y]) :
    ∃ q d tail, childP t qs = some q ∧ pden T stop tail (domOf d y) = some q := by
  have h' := pdens_filter (fun s => decide (s = t)) h
  rw [hy] at h'
  obtain ⟨q, d, tail, hq, hd⟩ := pdens_one h'
  exact ⟨q, d, tail, by unfold childP; rw [hq]; rfl, hd⟩

theorem childP_none {stop : Bool} {t : String} {xs : List Xml} {qs : List PDen}
    (h : PDens T stop xs qs) (hy : (xs.filter fun x => xtag x = t) = []) : childP t qs = none := by
  have h' := pdens_filter (fun s => decide (s = t)) h
  rw [hy] at h'
  unfold childP
  rw [pdens_nil h']
  rfl

mutual
theorem pkg_rt (stop : Bool) : ∀ p : Pkg, AnyPkg T p →
    ∃ x, writePkg T p = .ok x ∧ Safe x ∧ xtag x = "AR-PACKAGE" ∧
      ∀ d tail q, pden T stop tail (domOf d x) = some q →
        (ReadablePkg stop p → q.pkg = .ok (normPkg T (firstsPkg p))) ∧
        (¬ ReadablePkg stop p → q.pkg = .error .duplicateElement)
  | .mk head es ps, h => by
    obtain ⟨hh, he, hps⟩ := h
    obtain ⟨as, ks, w1, w2, w3, w4⟩ := header_rt hh
    obtain ⟨xs, e1, e2, e3⟩ := elements_rt stop es he
    obtain ⟨ys, p1, p2, p3⟩ := pkgs_rt stop ps hps
    have hsafe := w2
    rw [Safe] at hsafe
    obtain ⟨s1, s2, s3⟩ := hsafe
    refine ⟨.node "AR-PACKAGE" as (ks ++ (block "ELEMENTS" xs es.isEmpty ++
      block "AR-PACKAGES" ys ps.isEmpty)), ?_, ?_, rfl, ?_⟩
    · rw [writePkg, w1]
      simp only [e1, p1]
    · rw [Safe]
      refine ⟨s1, s2, ?_⟩
      rw [safeAll_iff] at s3 ⊢
      intro x hx
      have hb : ∀ (t : String) (zs : List Xml) (b : Bool), Name t → (∀ z ∈ zs, Safe z) →
          x ∈ block t zs b → Safe x := by
        intro t zs b ht hz hx
        unfold block at hx
        split at hx
        · simp at hx
        · simp only [List.mem_singleton] at hx
          subst hx
          rw [Safe]
          exact ⟨ht, SafeAttrs.nil, (safeAll_iff zs).2 hz⟩
      rcases List.mem_append.1 hx with hx | hx
      · exact s3 x hx
      · rcases List.mem_append.1 hx with hx | hx
        · exact hb _ _ _ ⟨by decide, by decide⟩ e2 hx
        · exact hb _ _ _ ⟨by decide, by decide⟩ (fun z hz => (p2 z hz).1) hx
    · intro d tail q hq
      obtain ⟨q1, q2⟩ := pden_den hq
      have q3 := pden_node hq
      have hk1 : ∀ t, t = "ELEMENTS" ∨ t = "AR-PACKAGES" →
          (ks.filter fun x => decide (xtag x = t)) = [] := by
        intro t ht
        rw [List.filter_eq_nil_iff]
        intro x hx
        rcases ht with rfl | rfl
        · simpa using (w3 x hx).1
        · simpa using (w3 x hx).2
      rw [q2]
      unfold readPackage
      rw [w4 _ _ d tail _ q1]
      · simp only
        have hel : readElementsOf stop q.kids =
            if stop = true ∧ ¬ (es.map elemName).Nodup then .error .duplicateElement
            else .ok ((firstOfEach es).map (normVal T false)) := by
          unfold readElementsOf
          cases es with
          | nil =>
            rw [childP_none q3]
            · simp [firstOfEach]
            · rw [List.filter_append, hk1 _ (.inl rfl)]
              simp only [List.isEmpty_nil, block, if_true, List.nil_append]
              rw [List.filter_eq_nil_iff]
              intro x hx
              split at hx
              · simp at hx
              · simp only [List.mem_singleton] at hx; subst hx; simp [xtag]
          | cons v es =>
            obtain ⟨z, d', tail', hc, hz⟩ := childP_block (t := "ELEMENTS") q3
              (y := .node "ELEMENTS" [] xs) (by
                rw [List.filter_append, hk1 _ (.inl rfl), List.filter_append]
                have : (List.filter (fun x => decide (xtag x = "ELEMENTS"))
                    (block "AR-PACKAGES" ys ps.isEmpty)) = [] := by
                  rw [List.filter_eq_nil_iff]
                  intro x hx
                  rw [block_tag x hx]; decide
                rw [this]
                simp [block, xtag])
            rw [hc]
            simp only
            rw [e3 _ (pdens_dens (pden_node hz)) [] (by simp)]
            have hall : ((firstOfEach (v :: es)).filter
                fun w => decide (elemName w ∉ ([] : List (Val Cls)).map elemName)) =
                firstOfEach (v :: es) := by
              rw [List.filter_eq_self]; simp
            rw [hall]
            simp
        have hnames : ((firstOfEach es).map (normVal T false)).map elemName =
            (firstOfEach es).map elemName := by
          rw [List.map_map]
          exact List.map_congr_left (fun v _ => elemName_norm false v)
        have htaken : ((firstOfEach es).map elemName ++ ps.map Pkg.name).Nodup ↔
            (ps.map Pkg.name).Nodup ∧ ∀ p ∈ ps, p.name ∉ es.map elemName := by
          rw [List.nodup_append]
          constructor
          · rintro ⟨-, h1, h2⟩
            exact ⟨h1, fun p hp hm => h2 _ ((firstOfEach_mem es _).2 hm) _
              (List.mem_map_of_mem hp) rfl⟩
          · rintro ⟨h1, h2⟩
            refine ⟨firstOfEach_names es, h1, ?_⟩
            rintro a ha b hb rfl
            obtain ⟨p, hp, rfl⟩ := List.mem_map.1 hb
            exact h2 p hp ((firstOfEach_mem es _).1 ha)
        have hsub : (ps = [] ∧ childP "AR-PACKAGES" q.kids = none) ∨
            ∃ z, childP "AR-PACKAGES" q.kids = some z ∧
              (z.kids.filter fun k => decide (k.tag = "AR-PACKAGE")) = z.kids ∧
              PDens T stop ys z.kids := by
          cases ps with
          | nil =>
            refine .inl ⟨rfl, childP_none q3 ?_⟩
            rw [List.filter_append, hk1 _ (.inr rfl), List.filter_append]
            simp only [block, List.isEmpty_nil, if_true, List.filter_nil, List.append_nil,
              List.nil_append]
            rw [List.filter_eq_nil_iff]
            intro x hx
            split at hx
            · simp at hx
            · simp only [List.mem_singleton] at hx; subst hx; simp [xtag]
          | cons p ps =>
            obtain ⟨z, d', tail', hc, hz⟩ := childP_block (t := "AR-PACKAGES") q3
              (y := .node "AR-PACKAGES" [] ys) (by
                rw [List.filter_append, hk1 _ (.inr rfl), List.filter_append]
                have : (List.filter (fun x => decide (xtag x = "AR-PACKAGES"))
                    (block "ELEMENTS" xs es.isEmpty)) = [] := by
                  rw [List.filter_eq_nil_iff]
                  intro x hx
                  rw [block_tag x hx]; decide
                rw [this]
                simp [block, xtag])
            have hz' := pden_node hz
            refine .inr ⟨z, hc, ?_, hz'⟩
            rw [List.filter_eq_self]
            intro k hk
            simp [pdens_all hz' (fun y hy => (p2 y hy).2) k hk]
        rw [hel]
        refine ⟨fun hd => ?_, fun hd => ?_⟩
        · obtain ⟨r1, r2, r3, r4⟩ := hd
          rw [if_neg (fun h => h.2 (r1 h.1))]
          simp only [hnames]
          rcases hsub with ⟨rfl, hc⟩ | ⟨z, hc, hfil, hz⟩
          · rw [hc]
            simp [normPkg, normPkgs, firstsPkg, firstsPkgs]
          · rw [hc]
            simp only
            rw [hfil, (p3 z.kids hz _ (firstOfEach_names es)).1 ⟨r4, htaken.2 ⟨r2, r3⟩⟩]
            simp [normPkg, firstsPkg]
        · by_cases hes : stop = true ∧ ¬ (es.map elemName).Nodup
          · rw [if_pos hes]
          · rw [if_neg hes]
            simp only [hnames]
            have hes' : stop = true → (es.map elemName).Nodup :=
              fun h => Classical.byContradiction fun h' => hes ⟨h, h'⟩
            have hps' : ¬ (ReadablePkgs stop ps ∧
                ((firstOfEach es).map elemName ++ ps.map Pkg.name).Nodup) :=
              fun h => hd ⟨hes', (htaken.1 h.2).1, (htaken.1 h.2).2, h.1⟩
            rcases hsub with ⟨rfl, hc⟩ | ⟨z, hc, hfil, hz⟩
            · exact absurd ⟨trivial, by simpa using firstOfEach_names es⟩ hps'
            · rw [hc]
              simp only
              rw [hfil, (p3 z.kids hz _ (firstOfEach_names es)).2.1 hps']
      · intro x hx
        rcases List.mem_append.1 hx with hx | hx
        · exact .inl (block_tag x hx)
        · exact .inr (block_tag x hx)
theorem pkgs_rt (stop : Bool) : ∀ ps : List Pkg, AnyPkgs T ps →
    ∃ xs, writePkgs T ps = .ok xs ∧ (∀ x ∈ xs, Safe x ∧ xtag x = "AR-PACKAGE") ∧
      ∀ qs, PDens T stop xs qs → ∀ taken : List (Option String), taken.Nodup →
        (ReadablePkgs stop ps ∧ (taken ++ ps.map Pkg.name).Nodup →
          readSubs taken qs = .ok (normPkgs T (firstsPkgs ps))) ∧
        (¬ (ReadablePkgs stop ps ∧ (taken ++ ps.map Pkg.name).Nodup) →
          readSubs taken qs = .error .duplicateElement) ∧
        (ReadablePkgs stop ps → (taken ++ ps.map Pkg.name).Nodup →
          readRoot taken qs = .ok (normPkgs T (firstsPkgs ps))) ∧
        (ReadablePkgs stop ps → ¬ (taken ++ ps.map Pkg.name).Nodup →
          readRoot taken qs = .error .valueError) ∧
        (¬ ReadablePkgs stop ps → (taken ++ ps.map Pkg.name).Nodup →
          readRoot taken qs = .error .duplicateElement) ∧
        (¬ ReadablePkgs stop ps → readRoot taken qs = .error .duplicateElement ∨
          readRoot taken qs = .error .valueError)
  | [], _ => by
    refine ⟨[], by simp [writePkgs], by simp, ?_⟩
    intro qs hq taken ht
    cases hq
    have h1 : ReadablePkgs stop [] := trivial
    simp [readSubs, readRoot, normPkgs, firstsPkgs, ht, h1]
  | p :: ps, h => by
    obtain ⟨h1, h2⟩ := h
    obtain ⟨x, a1, a2, a3, a4⟩ := pkg_rt stop p h1
    obtain ⟨xs, b1, b2, b3⟩ := pkgs_rt stop ps h2
    refine ⟨x :: xs, by simp only [writePkgs, a1, b1], ?_, ?_⟩
    · intro y hy
      rcases List.mem_cons.1 hy with rfl | hy
      · exact ⟨a2, a3⟩
      · exact b2 y hy
    · intro qs hq taken ht
      cases hq with
      | cons d tail hq hs =>
        rename_i q qs
        obtain ⟨c1, c2⟩ := a4 d tail q hq
        have hname : (normPkg T (firstsPkg p)).name = p.name := by
          rw [name_norm]; cases p; rfl
        by_cases hp : ReadablePkg stop p
        · rw [readSubs, readRoot, c1 hp]
          simp only [hname]
          by_cases hm : p.name ∈ taken
          · have hn : ¬ (taken ++ (p :: ps).map Pkg.name).Nodup := fun hn =>
              (List.nodup_append.1 hn).2.2 _ hm _ (by simp) rfl
            simp only [hm, hn, if_true]
            simp
          · have htk : (taken ++ [p.name]).Nodup := by
              rw [List.nodup_append]
              refine ⟨ht, by simp, ?_⟩
              rintro a ha b hb rfl
              simp only [List.mem_singleton] at hb
              subst hb
              exact hm ha
            have happ : taken ++ (p :: ps).map Pkg.name =
                taken ++ [p.name] ++ ps.map Pkg.name := by simp
            have hr : ReadablePkgs stop (p :: ps) ↔ ReadablePkgs stop ps :=
              ⟨fun h => h.2, fun h => ⟨hp, h⟩⟩
            obtain ⟨d1, d2, d3, d4, d5, d6⟩ := b3 qs hs _ htk
            rw [happ, hr, if_neg hm, if_neg hm]
            refine ⟨fun h => ?_, fun h => ?_, fun h h' => ?_, fun h h' => ?_, fun h h' => ?_,
              fun h => ?_⟩
            · rw [d1 h]; rfl
            · rw [d2 h]
            · rw [d3 h h']; rfl
            · rw [d4 h h']
            · rw [d5 h h']
            · rcases d6 h with h | h
              · rw [h]; exact .inl rfl
              · rw [h]; exact .inr rfl
        · have hr : ¬ ReadablePkgs stop (p :: ps) := fun h => hp h.1
          rw [readSubs, readRoot, c2 hp]
          simp [hr]
end

/-! ### Documents -/

/-- The packages of a document. -/
def nodesOf (T : Tables Cls WM RM) (stop : Bool) (ds : List Dom) : List PDen :=
  ((pdenKids T stop ds).filter fun k => k.tag = "AR-PACKAGES").flatMap
    fun k => k.kids.filter fun k => k.tag = "AR-PACKAGE"

theorem doc_any (skip stop : Bool) (n : Nat) {P : List Pkg} (hp : AnyPkgs T P) :
    ∃ xs text ds, writePkgs T P = .ok xs ∧
      writeDocument (.node "AUTOSAR" (rootAttrs skip n) (block "AR-PACKAGES" xs P.isEmpty)) =
        .ok text ∧
      parseDocument text = some (.elem "AUTOSAR" (rootAttrs skip n) ds) ∧
      (ReadablePkgs stop P → (P.map Pkg.name).Nodup →
        readRoot [] (nodesOf T stop ds) = .ok (normPkgs T (firstsPkgs P))) := by
  obtain ⟨xs, p1, p2, p3⟩ := pkgs_rt (T := T) stop P hp
  let root : Xml := .node "AUTOSAR" (rootAttrs skip n) (block "AR-PACKAGES" xs P.isEmpty)
  have hsafe : Safe root := by
    show Safe (.node _ _ _)
    rw [Safe]
    refine ⟨⟨by decide, by decide⟩, root_safe skip _, ?_⟩
    rw [safeAll_iff]
    intro x hx
    unfold block at hx
    split at hx
    · simp at hx
    · simp only [List.mem_singleton] at hx
      subst hx
      rw [Safe]
      exact ⟨⟨by decide, by decide⟩, SafeAttrs.nil, (safeAll_iff xs).2 (fun x hx => (p2 x hx).1)⟩
  have hpd : parseDocument (xmlDecl ++ '\n' :: render 0 root) = some (domOf 0 root) := by
    unfold parseDocument
    rw [List.take_left', List.drop_left'] <;> try rfl
    rw [if_pos rfl]
    exact parse_render root hsafe ['\n'] (by simp)
  have hdom : domOf 0 root = .elem "AUTOSAR" (rootAttrs skip n)
      (domKids 1 (block "AR-PACKAGES" xs P.isEmpty) ++ [.text (ws 0)]) := by
    show domOf 0 (.node _ _ _) = _
    rw [domOf]
  have hk := pdens_kids (T := T) stop 1 (block "AR-PACKAGES" xs P.isEmpty) (ws 0)
  have hnodes : PDens T stop xs (nodesOf T stop (domKids 1 (block "AR-PACKAGES" xs P.isEmpty) ++
        [.text (ws 0)])) := by
    unfold nodesOf
    generalize pdenKids T stop _ = ks at hk
    cases hb : P.isEmpty with
    | true =>
      rw [hb] at hk
      cases hk
      have : P = [] := by simpa using hb
      rw [this, writePkgs] at p1
      cases p1
      exact .nil
    | false =>
      rw [hb] at hk
      obtain ⟨q, d, tail, rfl, hq⟩ := pdens_one hk
      have hq' := pden_node hq
      have ht : q.tag = "AR-PACKAGES" := pden_tag hq
      have hfil : (q.kids.filter fun k => decide (k.tag = "AR-PACKAGE")) = q.kids := by
        rw [List.filter_eq_self]
        intro k hk
        simp [pdens_all hq' (fun y hy => (p2 y hy).2) k hk]
      simpa [ht, hfil] using hq'
  obtain ⟨-, -, r1, -, -, -⟩ := p3 _ hnodes [] List.nodup_nil
  simp only [List.nil_append] at r1
  exact ⟨xs, xmlDecl ++ '\n' :: render 0 root, _, p1, Verif.Props.Xml.writeDocument_eq root,
    by rw [hpd, hdom], r1⟩

end Verif.Codec.Older
