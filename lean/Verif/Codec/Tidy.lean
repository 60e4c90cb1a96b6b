import Verif.Codec.Order
import Verif.Codec.Facts
import Verif.Codec.TidySpec
/-
Elements that are left out make no difference to the rest of the file; others keep the whole file
from being read.
-/
set_option linter.unusedSimpArgs false
namespace Verif.Codec.Tidy
open Verif.Py Verif.Num Verif.Xml Verif.Xml.Spec Verif.Codec.Spec

theorem pden_text (stop : Bool) (tl : Option String) (s : String) :
    pden stop tl (.text s) = none := by rw [pden]

/-- What is made of an element does not depend on the text after it. -/
theorem den_read {tl : Option String} {t : String} {as : Attrs} {ds : List Dom} {k : RD}
    (h : rden tables tl (.elem t as ds) = some k) (m : RM) :
    k.read m = readWith tables m (.elem t as ds) := by
  rw [rden_elem] at h
  cases h
  unfold readWith
  rw [rden_elem]
  rfl

theorem dens : ∀ (stop : Bool) (ds : List Dom),
    (pdenKids stop ds).map PDen.den = rdenKids tables ds
  | stop, [] => by rw [pdenKids, rdenKids]; rfl
  | stop, .text s :: ds => by rw [pdenKids, rdenKids, pden, rden]; exact dens stop ds
  | stop, .elem t as xs :: ds => by
    obtain ⟨k, hk, hp⟩ := pden_elem stop (leadText ds) t as xs
    rw [pdenKids, rdenKids, hp, hk]
    simp only [List.map_cons, PDen.den]
    rw [dens stop ds]

theorem pkids_cons {stop : Bool} {d : Dom} {ds : List Dom} {p : PDen}
    (h : pden stop (leadText ds) d = some p) :
    pdenKids stop (d :: ds) = p :: pdenKids stop ds := by
  rw [pdenKids, h]

/-! ### Leaving elements out -/

theorem report_false {α : Type} {e : PyErr} {go : Except PyErr α} (h : reported e = true) :
    report false e go = go := by
  unfold report
  simp only [reported, Bool.or_eq_true, decide_eq_true_eq] at h
  simp [h]

theorem elements_tidy : ∀ (ds : List Dom) (acc : List (Val Cls)),
    readElements false acc (rdenKids tables (ds.filter fun d => !leftOut d)) =
      readElements false acc (rdenKids tables ds)
  | [], _ => rfl
  | .text s :: ds, acc => by
    have : leftOut (.text s) = false := rfl
    rw [List.filter_cons, this]
    simp only [Bool.not_false, if_true]
    rw [rdenKids, rden, rdenKids, rden]
    exact elements_tidy ds acc
  | .elem t as xs :: ds, acc => by
    have ih := elements_tidy ds
    rw [List.filter_cons]
    conv => rhs; rw [rdenKids, rden_elem]
    simp only
    conv => rhs; rw [readElements]
    simp only [RDen.tag, RDen.read]
    have hread : ∀ m, runReader tables m t as (leadText xs) (rdenKids tables xs) =
        readWith tables m (.elem t as xs) := by
      intro m
      unfold readWith
      rw [rden_elem]
      rfl
    simp only [hread]
    cases hl : leftOut (.elem t as xs) with
    | true =>
      simp only [Bool.not_true, Bool.false_eq_true, if_false]
      rw [ih acc]
      unfold leftOut readAlone at hl
      simp only at hl
      cases hm : dictGet readerCollectable t with
      | none => rfl
      | some m =>
        rw [hm] at hl
        simp only at hl ⊢
        cases hr : readWith tables m (.elem t as xs) with
        | ok v => rw [hr] at hl; cases hl
        | error e =>
          rw [hr] at hl
          simp only at hl ⊢
          rw [report_false hl]
    | false =>
      simp only [Bool.not_false, if_true]
      rw [rdenKids, rden_elem]
      simp only
      rw [readElements]
      simp only [RDen.tag, RDen.read, hread, ih]

theorem lead_tidy : ∀ ds : List Dom, leadText (tidyParts ds) = leadText ds
  | [] => by rw [tidyParts]
  | .text s :: ds => by rw [tidyParts]; cases ds with
    | nil => rw [tidyParts]
    | cons d ds => cases d <;> simp [tidyParts, leadText]
  | .elem t as xs :: ds => by
    rw [tidyParts]
    split
    · rfl
    · split <;> rfl

/-- Parts of packages that are neither elements nor packages. -/
def plain (t : String) : Bool := t ≠ "ELEMENTS" && t ≠ "AR-PACKAGES"

theorem plain_tidy : ∀ ds : List Dom, (rdenKids tables (tidyParts ds)).filter (fun k => plain k.tag) =
    (rdenKids tables ds).filter fun k => plain k.tag
  | [] => by rw [tidyParts]
  | .text s :: ds => by
    rw [tidyParts, rdenKids, rden, rdenKids, rden]
    exact plain_tidy ds
  | .elem t as xs :: ds => by
    have ih := plain_tidy ds
    rw [tidyParts]
    by_cases h1 : t = "ELEMENTS"
    · simp only [h1, if_true]
      rw [rdenKids, rden_elem, rdenKids, rden_elem]
      simpa [plain, RDen.tag] using ih
    · by_cases h2 : t = "AR-PACKAGES"
      · simp only [h2, if_true]
        rw [if_neg (by decide), rdenKids, rden_elem, rdenKids, rden_elem]
        simpa [plain, RDen.tag] using ih
      · rw [if_neg h1, if_neg h2, rdenKids, rden_elem, rdenKids, rden_elem, lead_tidy]
        have : plain t = true := by simp [plain, h1, h2]
        rw [List.filter_cons, List.filter_cons, ih]

/-- The statements of `_read_package`. -/
def packageItems : List (RItem RM) :=
  match rm .package "" with
  | .node _ items => items
  | _ => []

theorem package_rm (t : String) : rm .package t = .node .Package packageItems := by
  rw [rm_fixed (m := .package) rfl t ""]
  rfl

theorem package_blind : (packageItems.all fun i => blind i "ELEMENTS" && blind i "AR-PACKAGES") = true := by
  decide +kernel

theorem item_plain (as : Attrs) (x : Option String) (ks : List RD) {i : RItem RM}
    (hb : blind i "ELEMENTS" = true) (hb' : blind i "AR-PACKAGES" = true) :
    readItem as x (ks.filter fun k => plain k.tag) i = readItem as x ks i := by
  rw [← readItem_blind as x ks i, ← readItem_blind as x (ks.filter fun k => plain k.tag) i]
  congr 1
  rw [List.filter_filter]
  apply List.filter_congr
  intro k _
  by_cases h1 : k.tag = "ELEMENTS"
  · simp [h1, hb]
  · by_cases h2 : k.tag = "AR-PACKAGES"
    · simp [h2, hb']
    · simp [plain, h1, h2]

theorem package_text (as : Attrs) (x x' : Option String) (ks : List RD) {i : RItem RM}
    (hi : i ∈ packageItems) : readItem as x ks i = readItem as x' ks i := by
  have : (packageItems.all fun i => match i with | .text _ _ => false | _ => true) = true := by
    decide +kernel
  have := List.all_eq_true.1 this i hi
  cases i <;> first | rfl | cases this

theorem package_head (t : String) (as : Attrs) (x x' : Option String) {ks ks' : List RD}
    (h : ks'.filter (fun k => plain k.tag) = ks.filter fun k => plain k.tag) :
    runReader tables .package t as x' ks' = runReader tables .package t as x ks := by
  have hm : tables.rm .package t = .node .Package packageItems := package_rm t
  unfold runReader
  rw [hm]
  have : packageItems.map (readItem as x' ks') = packageItems.map (readItem as x ks) := by
    apply List.map_congr_left
    intro i hi
    have hb := List.all_eq_true.1 package_blind i hi
    simp only [Bool.and_eq_true] at hb
    rw [package_text as x' x ks' hi, ← item_plain as x ks hb.1 hb.2,
      ← item_plain as x ks' hb.1 hb.2, h]
  simp only [this]

theorem subs_congr : ∀ {ks ks' : List PDen} (taken : List (Option String)),
    ks'.map PDen.pkg = ks.map PDen.pkg → readSubs taken ks' = readSubs taken ks
  | [], [], _, _ => rfl
  | k :: ks, k' :: ks', taken, h => by
    simp only [List.map_cons, List.cons.injEq] at h
    rw [readSubs, readSubs, h.1]
    split
    · rfl
    · rw [subs_congr _ h.2]
  | [], _ :: _, _, h => by simp at h
  | _ :: _, [], _, h => by simp at h

theorem root_congr : ∀ {ks ks' : List PDen} (taken : List (Option String)),
    ks'.map PDen.pkg = ks.map PDen.pkg → readRoot taken ks' = readRoot taken ks
  | [], [], _, _ => rfl
  | k :: ks, k' :: ks', taken, h => by
    simp only [List.map_cons, List.cons.injEq] at h
    rw [readRoot, readRoot, h.1]
    split
    · rfl
    · rw [root_congr _ h.2]
  | [], _ :: _, _, h => by simp at h
  | _ :: _, [], _, h => by simp at h

/-- The packages among the children. -/
abbrev packagesIn (ds : List Dom) : List PDen :=
  (pdenKids false ds).filter fun k => k.tag = "AR-PACKAGE"

theorem elem_tag {stop : Bool} {tl : Option String} {t : String} {as : Attrs} {ds : List Dom}
    {p : PDen} (h : pden stop tl (.elem t as ds) = some p) : p.tag = t := by
  obtain ⟨-, u, as', ds', he, ht, -⟩ := pden_parts h
  cases he
  exact ht

mutual
theorem tidy_pkg : ∀ (d : Dom) (tl tl' : Option String) (p : PDen), pden false tl d = some p →
    ∃ p', pden false tl' (tidy d) = some p' ∧ p'.tag = p.tag ∧ p'.pkg = p.pkg
  | .text s, tl, tl', p, h => by rw [pden] at h; cases h
  | .elem t as ds, tl, tl', p, h => by
    have hparts := tidy_parts ds
    obtain ⟨k, hk, hp⟩ := pden_elem false tl t as ds
    rw [hp] at h
    cases h
    obtain ⟨k', hk', hp'⟩ := pden_elem false tl' t as (tidyParts ds)
    rw [tidy]
    refine ⟨_, hp', by rw [elem_tag hp', elem_tag hp], ?_⟩
    show readPackage false k' _ = readPackage false k _
    have hhead : k'.read .package = k.read .package := by
      rw [rden_elem] at hk hk'
      cases hk; cases hk'
      exact package_head t as _ _ (plain_tidy ds)
    unfold readPackage
    rw [hhead]
    obtain ⟨he, hs⟩ := hparts
    rw [he]
    rcases hs with ⟨h1, h2⟩ | ⟨a, b, h1, h2, h3⟩
    · rw [h1, h2]
    · rw [h1, h2]
      simp only [subs_congr _ h3]
theorem tidy_parts : ∀ ds : List Dom,
    readElementsOf false (pdenKids false (tidyParts ds)) = readElementsOf false (pdenKids false ds) ∧
    ((childP "AR-PACKAGES" (pdenKids false (tidyParts ds)) = none ∧
        childP "AR-PACKAGES" (pdenKids false ds) = none) ∨
      ∃ a b, childP "AR-PACKAGES" (pdenKids false (tidyParts ds)) = some a ∧
        childP "AR-PACKAGES" (pdenKids false ds) = some b ∧
        (a.kids.filter fun k => k.tag = "AR-PACKAGE").map PDen.pkg =
          (b.kids.filter fun k => k.tag = "AR-PACKAGE").map PDen.pkg)
  | [] => by
    rw [tidyParts, pdenKids]
    exact ⟨rfl, .inl ⟨rfl, rfl⟩⟩
  | .text s :: ds => by
    rw [tidyParts, pdenKids, pden, pdenKids, pden]
    exact tidy_parts ds
  | .elem t as xs :: ds => by
    have ih := tidy_parts ds
    have hall := tidy_all xs
    rw [tidyParts]
    obtain ⟨k, hk, hp⟩ := pden_elem false (leadText ds) t as xs
    have htag := elem_tag hp
    rw [pkids_cons hp]
    by_cases h1 : t = "ELEMENTS"
    · obtain ⟨k', hk', hp'⟩ := pden_elem false (leadText (tidyParts ds)) t as
        (xs.filter fun d => !leftOut d)
      have htag' := elem_tag hp'
      rw [if_pos h1, pkids_cons hp']
      constructor
      · unfold readElementsOf
        rw [childP_cons, childP_cons, if_pos (htag'.trans h1), if_pos (htag.trans h1)]
        simp only [PDen.kids, dens]
        exact elements_tidy xs []
      · have hn : t ≠ "AR-PACKAGES" := by rw [h1]; decide
        rw [childP_cons, childP_cons, if_neg (by rw [htag']; exact hn),
          if_neg (by rw [htag]; exact hn)]
        exact ih.2
    · by_cases h2 : t = "AR-PACKAGES"
      · obtain ⟨k', hk', hp'⟩ := pden_elem false (leadText (tidyParts ds)) t as (tidyAll xs)
        have htag' := elem_tag hp'
        rw [if_neg h1, if_pos h2, pkids_cons hp']
        constructor
        · unfold readElementsOf
          rw [childP_cons, childP_cons, if_neg (by rw [htag']; exact h1),
            if_neg (by rw [htag]; exact h1)]
          exact ih.1
        · rw [childP_cons, childP_cons, if_pos (htag'.trans h2), if_pos (htag.trans h2)]
          exact .inr ⟨_, _, rfl, rfl, hall⟩
      · obtain ⟨k', hk', hp'⟩ := pden_elem false (leadText (tidyParts ds)) t as xs
        have htag' := elem_tag hp'
        rw [if_neg h1, if_neg h2, pkids_cons hp']
        constructor
        · unfold readElementsOf
          rw [childP_cons, childP_cons, if_neg (by rw [htag']; exact h1),
            if_neg (by rw [htag]; exact h1)]
          exact ih.1
        · rw [childP_cons, childP_cons, if_neg (by rw [htag']; exact h2),
            if_neg (by rw [htag]; exact h2)]
          exact ih.2
theorem tidy_all : ∀ ds : List Dom, (packagesIn (tidyAll ds)).map PDen.pkg =
    (packagesIn ds).map PDen.pkg
  | [] => by rw [tidyAll]
  | d :: ds => by
    have ih := tidy_all ds
    unfold packagesIn at ih ⊢
    rw [tidyAll, pdenKids]
    cases h : pden false (leadText ds) d with
    | none =>
      cases d with
      | elem t as xs =>
        obtain ⟨k, hk, hp⟩ := pden_elem false (leadText ds) t as xs
        rw [hp] at h; cases h
      | text s =>
        rw [tidy, pden]
        conv => rhs; rw [pdenKids, pden]
        exact ih
    | some p =>
      obtain ⟨p', hp', ht, hpk⟩ := tidy_pkg d (leadText ds) (leadText (tidyAll ds)) p h
      rw [hp']
      conv => rhs; rw [pdenKids, h]
      simp only [List.filter_cons, ht]
      split
      · simp only [List.map_cons, hpk, ih]
      · exact ih
end

/-- The packages of a file. -/
abbrev rootNodes (stop : Bool) (ds : List Dom) : List PDen :=
  ((pdenKids stop ds).filter fun k => k.tag = "AR-PACKAGES").flatMap fun k =>
    k.kids.filter fun k => k.tag = "AR-PACKAGE"

theorem root_tidy : ∀ ds : List Dom, (rootNodes false (tidyParts ds)).map PDen.pkg =
    (rootNodes false ds).map PDen.pkg
  | [] => by rw [tidyParts]
  | .text s :: ds => by
    have ih := root_tidy ds
    unfold rootNodes at ih ⊢
    rw [tidyParts, pdenKids, pden, pdenKids, pden]
    exact ih
  | .elem t as xs :: ds => by
    have ih := root_tidy ds
    unfold rootNodes at ih ⊢
    obtain ⟨k, hk, hp⟩ := pden_elem false (leadText ds) t as xs
    have htag := elem_tag hp
    rw [pkids_cons hp, tidyParts]
    by_cases h2 : t = "AR-PACKAGES"
    · have h1 : t ≠ "ELEMENTS" := by rw [h2]; decide
      obtain ⟨k', hk', hp'⟩ := pden_elem false (leadText (tidyParts ds)) t as (tidyAll xs)
      have htag' := elem_tag hp'
      rw [if_neg h1, if_pos h2, pkids_cons hp', List.filter_cons, List.filter_cons,
        if_pos (by simp [htag', h2]), if_pos (by simp [htag, h2]), List.flatMap_cons,
        List.flatMap_cons, List.map_append, List.map_append, ih]
      congr 1
      exact tidy_all xs
    · have hskip : ∀ ys, ∃ p, pden false (leadText (tidyParts ds)) (.elem t as ys) = some p ∧
          p.tag = t := by
        intro ys
        obtain ⟨k', hk', hp'⟩ := pden_elem false (leadText (tidyParts ds)) t as ys
        exact ⟨_, hp', elem_tag hp'⟩
      have : ∀ ys, ((pdenKids false (.elem t as ys :: tidyParts ds)).filter
          fun k => k.tag = "AR-PACKAGES") = (pdenKids false (tidyParts ds)).filter
          fun k => k.tag = "AR-PACKAGES" := by
        intro ys
        obtain ⟨p, hp, ht⟩ := hskip ys
        rw [pkids_cons hp, List.filter_cons, if_neg (by simp [ht, h2])]
      have hthis : ∀ q : PDen, q.tag = t → ((q :: pdenKids false ds).filter
          fun k => k.tag = "AR-PACKAGES") = (pdenKids false ds).filter
          fun k => k.tag = "AR-PACKAGES" := by
        intro q hq
        rw [List.filter_cons, if_neg (by simp [hq, h2])]
      rw [hthis _ htag, ← ih]
      split
      · rw [this]
      · rw [this]

theorem readTree_tidy (version : Nat) (d : Dom) :
    readTree false version (tidy d) = readTree false version d := by
  cases d with
  | text s => rw [tidy]
  | elem t as ds =>
    rw [tidy]
    unfold readTree
    simp only
    rw [root_congr [] (root_tidy ds)]

/-! ### Elements that keep the file from being read -/

/-- What is raised for the element is not just reported. -/
def Fatal (stop : Bool) (d : Dom) : Prop :=
  ∃ e, readAlone d = some (.error e) ∧ (stop = true ∨ reported e = false)

theorem report_error {α : Type} {stop : Bool} {e : PyErr} {go : Except PyErr α}
    (h : stop = true ∨ reported e = false) : report stop e go = .error e := by
  unfold report
  rcases h with h | h
  · rw [if_pos h]
  · split
    · rfl
    · simp only [reported, Bool.or_eq_false_iff, decide_eq_false_iff_not] at h
      simp [h]

theorem report_fails {α : Type} {stop : Bool} {e e' : PyErr} {go : Except PyErr α}
    (h : go = .error e') : ∃ e'', report stop e go = .error e'' := by
  unfold report
  split
  · exact ⟨e, rfl⟩
  · split
    · exact ⟨e', h⟩
    · exact ⟨e, rfl⟩

theorem elements_fatal {stop : Bool} {d : Dom} (hd : Fatal stop d) :
    ∀ (ds : List Dom) (acc : List (Val Cls)), d ∈ ds →
      ∃ e, readElements stop acc (rdenKids tables ds) = .error e
  | [], _, h => by cases h
  | .text s :: ds, acc, h => by
    rw [rdenKids, rden]
    rcases List.mem_cons.1 h with rfl | h
    · obtain ⟨e, he, -⟩ := hd; cases he
    · exact elements_fatal hd ds acc h
  | .elem t as xs :: ds, acc, h => by
    have ih := elements_fatal hd ds
    rw [rdenKids, rden_elem]
    simp only
    rw [readElements]
    simp only [RDen.tag, RDen.read]
    have hread : ∀ m, runReader tables m t as (leadText xs) (rdenKids tables xs) =
        readWith tables m (.elem t as xs) := by
      intro m
      unfold readWith
      rw [rden_elem]
      rfl
    simp only [hread]
    rcases List.mem_cons.1 h with rfl | h
    · obtain ⟨e, he, hs⟩ := hd
      unfold readAlone at he
      simp only at he
      cases hm : dictGet readerCollectable t with
      | none => rw [hm] at he; cases he
      | some m =>
        rw [hm] at he
        simp only [Option.some.injEq] at he
        simp only [he]
        exact ⟨e, report_error hs⟩
    · split
      · exact ih acc h
      · split
        · obtain ⟨e', he'⟩ := ih acc h
          exact report_fails he'
        · split
          · exact ⟨_, rfl⟩
          · split
            · obtain ⟨e', he'⟩ := ih acc h
              exact report_fails he'
            · exact ih _ h
        · exact ⟨_, rfl⟩

theorem subs_fatal {p : PDen} {e : PyErr} (hp : p.pkg = .error e) :
    ∀ (ks : List PDen) (taken : List (Option String)), p ∈ ks → ∃ e', readSubs taken ks = .error e'
  | [], _, h => by cases h
  | k :: ks, taken, h => by
    rw [readSubs]
    rcases List.mem_cons.1 h with rfl | h
    · rw [hp]; exact ⟨e, rfl⟩
    · split
      · exact ⟨_, rfl⟩
      · split
        · exact ⟨_, rfl⟩
        · obtain ⟨e', he⟩ := subs_fatal hp ks (taken ++ [Pkg.name _]) h
          exact ⟨e', by rw [he]⟩

theorem root_fatal {p : PDen} {e : PyErr} (hp : p.pkg = .error e) :
    ∀ (ks : List PDen) (taken : List (Option String)), p ∈ ks → ∃ e', readRoot taken ks = .error e'
  | [], _, h => by cases h
  | k :: ks, taken, h => by
    rw [readRoot]
    rcases List.mem_cons.1 h with rfl | h
    · rw [hp]; exact ⟨e, rfl⟩
    · split
      · exact ⟨_, rfl⟩
      · split
        · exact ⟨_, rfl⟩
        · obtain ⟨e', he⟩ := root_fatal hp ks (taken ++ [Pkg.name _]) h
          exact ⟨e', by rw [he]⟩

theorem mem_pkids {stop : Bool} {d : Dom} : ∀ {ds : List Dom}, d ∈ ds → ∀ {t : String},
    hasTag t d = true → ∃ tl p, p ∈ pdenKids stop ds ∧ pden stop tl d = some p ∧ p.tag = t
  | [], h, _, _ => by cases h
  | .text s :: ds, h, t, ht => by
    rcases List.mem_cons.1 h with rfl | h
    · cases ht
    · obtain ⟨tl, p, h1, h2⟩ := mem_pkids (stop := stop) h ht
      exact ⟨tl, p, by rw [pdenKids, pden]; exact h1, h2⟩
  | .elem u as xs :: ds, h, t, ht => by
    obtain ⟨k, hk, hp⟩ := pden_elem stop (leadText ds) u as xs
    rw [pkids_cons hp]
    rcases List.mem_cons.1 h with rfl | h
    · refine ⟨leadText ds, _, List.mem_cons_self, hp, ?_⟩
      rw [elem_tag hp]
      simpa [hasTag] using ht
    · obtain ⟨tl, p, h1, h2⟩ := mem_pkids (stop := stop) h ht
      exact ⟨tl, p, List.mem_cons_of_mem _ h1, h2⟩

theorem first_child {stop : Bool} {t u : String} {a : Attrs} {es ds : List Dom}
    (h : firstElem t ds = some (.elem u a es)) :
    ∃ p, childP t (pdenKids stop ds) = some p ∧ p.kids = pdenKids stop es := by
  have hcf := childP_first stop t ds
  have hs : (childP t (pdenKids stop ds)).isSome = true := by rw [hcf.1, h]; rfl
  obtain ⟨p, hp⟩ := Option.isSome_iff_exists.1 hs
  obtain ⟨-, d, tl, hd, hden⟩ := hcf.2 p hp
  rw [h] at hd
  cases hd
  obtain ⟨-, _, _, _, he, -, hk, -⟩ := pden_parts hden
  cases he
  exact ⟨p, hp, hk⟩

theorem package_fatal {stop : Bool} {d p : Dom} {es : List Dom} (hd : Fatal stop d)
    (hmem : d ∈ es) (h : InPackage es p) :
    ∀ {tl : Option String} {q : PDen}, pden stop tl p = some q → ∃ e, q.pkg = .error e := by
  induction h with
  | @here t as ds u a h =>
    intro tl q hq
    obtain ⟨-, _, _, _, he, -, -, hpkg⟩ := pden_parts hq
    cases he
    obtain ⟨x, hx, hk⟩ := first_child (stop := stop) h
    rw [hpkg]
    unfold readPackage
    split
    · exact ⟨_, rfl⟩
    · obtain ⟨e, he⟩ := elements_fatal hd _ [] hmem
      have : readElementsOf stop (pdenKids stop ds) = .error e := by
        unfold readElementsOf
        rw [hx]
        simp only [hk, dens]
        exact he
      rw [this]
      exact ⟨e, rfl⟩
    · exact ⟨_, rfl⟩
  | inside h hmem ht _ ih =>
    intro tl q hq
    obtain ⟨-, _, _, _, he, -, -, hpkg⟩ := pden_parts hq
    cases he
    obtain ⟨x, hx, hk⟩ := first_child (stop := stop) h
    obtain ⟨tl', p', hp', hden, htag⟩ := mem_pkids (stop := stop) hmem ht
    obtain ⟨e, he⟩ := ih hden
    rw [hpkg]
    unfold readPackage
    split
    · exact ⟨_, rfl⟩
    · split
      · exact ⟨_, rfl⟩
      · rw [hx]
        simp only [hk]
        rename_i es _
        obtain ⟨e', he'⟩ := subs_fatal he ((pdenKids stop _).filter fun k => k.tag = "AR-PACKAGE")
          (es.map elemName) (List.mem_filter.2 ⟨hp', by simp [htag]⟩)
        rw [he']
        exact ⟨e', rfl⟩
    · exact ⟨_, rfl⟩

/-- A package of the file is one of those that are read. -/
theorem root_mem {stop : Bool} {t : String} {as : Attrs} {ds es : List Dom}
    (h : InFile es (.elem t as ds)) : ∃ p tl q, InPackage es p ∧ pden stop tl p = some q ∧
      q ∈ rootNodes stop ds := by
  obtain ⟨a, ps, hps, p, hp, ht, hin⟩ := h
  obtain ⟨tl, x, hx, hxd, hxt⟩ := mem_pkids (stop := stop) hps (t := "AR-PACKAGES")
    (by simp [hasTag])
  obtain ⟨tl', q, hq, hqd, hqt⟩ := mem_pkids (stop := stop) hp ht
  obtain ⟨-, _, _, _, heq, -, hk, -⟩ := pden_parts hxd
  cases heq
  refine ⟨p, tl', q, hin, hqd, ?_⟩
  unfold rootNodes
  rw [List.mem_flatMap]
  exact ⟨x, List.mem_filter.2 ⟨hx, by simp [hxt]⟩, by
    rw [hk]; exact List.mem_filter.2 ⟨hq, by simp [hqt]⟩⟩

theorem file_fatal {stop : Bool} {version : Nat} {d root : Dom} {es : List Dom}
    (hd : Fatal stop d) (hmem : d ∈ es) (h : InFile es root) :
    ∃ e, readTree stop version root = .error e := by
  cases root with
  | text s => cases h
  | elem t as ds =>
    obtain ⟨p, tl, q, hin, hqd, hq⟩ := root_mem (stop := stop) h
    obtain ⟨e, he⟩ := package_fatal hd hmem hin hqd
    unfold readTree
    simp only
    obtain ⟨e', he'⟩ := root_fatal he _ [] hq
    exact ⟨e', by rw [he']⟩

/-! ### Elements that are kept -/

theorem report_ok {α : Type} {stop : Bool} {e : PyErr} {go : Except PyErr α} {r : α}
    (h : report stop e go = .ok r) : go = .ok r := by
  unfold report at h
  split at h
  · cases h
  · split at h
    · exact h
    · cases h

theorem elements_kept {stop : Bool} : ∀ (ds : List Dom) (acc es : List (Val Cls)),
    readElements stop acc (rdenKids tables ds) = .ok es →
    es = acc ++ (firstOfEach (ds.filterMap goodElement)).filter fun w =>
      decide (elemName w ∉ acc.map elemName)
  | [], acc, es, h => by
    rw [rdenKids, readElements] at h
    cases h
    simp [firstOfEach]
  | .text s :: ds, acc, es, h => by
    rw [rdenKids, rden] at h
    exact elements_kept ds acc es h
  | .elem t as xs :: ds, acc, es, h => by
    have ih := elements_kept (stop := stop) ds
    rw [rdenKids, rden_elem] at h
    simp only at h
    rw [readElements] at h
    simp only [RDen.tag, RDen.read] at h
    have hread : ∀ m, runReader tables m t as (leadText xs) (rdenKids tables xs) =
        readWith tables m (.elem t as xs) := by
      intro m
      unfold readWith
      rw [rden_elem]
      rfl
    simp only [hread] at h
    have hgood : goodElement (.elem t as xs) = match dictGet readerCollectable t with
        | none => none
        | some m => match readWith tables m (.elem t as xs) with
          | .ok v => some v
          | .error _ => none := by
      unfold goodElement readAlone
      simp only
      cases hm : dictGet readerCollectable t with
      | none => rfl
      | some m =>
        simp only
        cases hr : readWith tables m (.elem t as xs) <;> rfl
    rw [List.filterMap_cons, hgood]
    cases hm : dictGet readerCollectable t with
    | none =>
      rw [hm] at h
      exact ih acc es h
    | some m =>
      rw [hm] at h
      simp only at h ⊢
      cases hr : readWith tables m (.elem t as xs) with
      | error e =>
        rw [hr] at h
        exact ih acc es (report_ok h)
      | ok v =>
        rw [hr] at h
        simp only at h ⊢
        cases v with
        | obj c fs =>
          simp only at h
          split at h
          · cases h
          · rw [firstOfEach]
            split at h
            · rename_i hmem
              rw [ih acc es (report_ok h), List.filter_cons_of_neg (by simpa using hmem),
                List.filter_filter]
              congr 1
              apply List.filter_congr
              intro w _
              by_cases hw : elemName w = elemName (.obj c fs)
              · simp [hw, hmem]
              · simp [hw]
            · rename_i hmem
              rw [ih _ es h, List.filter_cons_of_pos (by simpa using hmem), List.filter_filter]
              simp only [List.append_assoc, List.singleton_append]
              congr 2
              apply List.filter_congr
              intro w _
              simp only [List.map_append, List.map_cons, List.map_nil, List.mem_append,
                List.mem_singleton, not_or, Bool.decide_and]
        | _ => cases h

theorem subs_mem {q : PDen} : ∀ {ks : List PDen} {taken : List (Option String)} {ps : List Pkg},
    q ∈ ks → readSubs taken ks = .ok ps → ∃ p ∈ ps, q.pkg = .ok p
  | [], _, _, h, _ => by cases h
  | k :: ks, taken, ps, hq, h => by
    rw [readSubs] at h
    split at h
    · cases h
    · rename_i p hp
      split at h
      · cases h
      · split at h
        · cases h
        · rename_i ps' hps
          cases h
          rcases List.mem_cons.1 hq with rfl | hq
          · exact ⟨p, List.mem_cons_self, hp⟩
          · obtain ⟨p', h1, h2⟩ := subs_mem hq hps
            exact ⟨p', List.mem_cons_of_mem _ h1, h2⟩

theorem roots_mem {q : PDen} : ∀ {ks : List PDen} {taken : List (Option String)} {ps : List Pkg},
    q ∈ ks → readRoot taken ks = .ok ps → ∃ p ∈ ps, q.pkg = .ok p
  | [], _, _, h, _ => by cases h
  | k :: ks, taken, ps, hq, h => by
    rw [readRoot] at h
    split at h
    · cases h
    · rename_i p hp
      split at h
      · cases h
      · split at h
        · cases h
        · rename_i ps' hps
          cases h
          rcases List.mem_cons.1 hq with rfl | hq
          · exact ⟨p, List.mem_cons_self, hp⟩
          · obtain ⟨p', h1, h2⟩ := roots_mem hq hps
            exact ⟨p', List.mem_cons_of_mem _ h1, h2⟩

theorem package_kept {stop : Bool} {p : Dom} {es : List Dom} (h : InPackage es p) :
    ∀ {tl : Option String} {q : PDen} {pkg : Pkg}, pden stop tl p = some q → q.pkg = .ok pkg →
      HasElements (firstOfEach (es.filterMap goodElement)) pkg := by
  induction h with
  | @here t as ds u a h =>
    intro tl q pkg hq hok
    obtain ⟨-, _, _, _, he, -, -, hpkg⟩ := pden_parts hq
    cases he
    obtain ⟨x, hx, hk⟩ := first_child (stop := stop) h
    rw [hpkg] at hok
    unfold readPackage readElementsOf at hok
    rw [hx] at hok
    simp only [hk, dens] at hok
    split at hok
    · cases hok
    · split at hok
      · cases hok
      · rename_i vs hvs
        have := elements_kept es [] vs hvs
        simp only [List.map_nil, List.not_mem_nil, not_false_eq_true, decide_true,
          List.nil_append] at this
        rw [List.filter_eq_self.2 (by simp)] at this
        rw [← this]
        split at hok
        · cases hok; exact .here
        · split at hok
          · cases hok
          · cases hok; exact .here
    · cases hok
  | inside h hmem ht _ ih =>
    intro tl q pkg hq hok
    obtain ⟨-, _, _, _, he, -, -, hpkg⟩ := pden_parts hq
    cases he
    obtain ⟨x, hx, hk⟩ := first_child (stop := stop) h
    obtain ⟨tl', p', hp', hden, htag⟩ := mem_pkids (stop := stop) hmem ht
    rw [hpkg] at hok
    unfold readPackage at hok
    rw [hx] at hok
    simp only [hk] at hok
    split at hok
    · cases hok
    · split at hok
      · cases hok
      · split at hok
        · cases hok
        · rename_i ps hps
          cases hok
          obtain ⟨pkg', h1, h2⟩ := subs_mem (List.mem_filter.2 ⟨hp', by simp [htag]⟩) hps
          exact .inside h1 (ih hden h2)
    · cases hok

theorem file_kept {stop : Bool} {version : Nat} {root : Dom} {es : List Dom} {doc : Document}
    (h : InFile es root) (hr : readTree stop version root = .ok doc) :
    ∃ p ∈ doc.packages, HasElements (firstOfEach (es.filterMap goodElement)) p := by
  cases root with
  | text s => cases h
  | elem t as ds =>
    obtain ⟨p, tl, q, hin, hqd, hq⟩ := root_mem (stop := stop) h
    unfold readTree at hr
    simp only at hr
    split at hr
    · cases hr
    · rename_i ps hps
      cases hr
      obtain ⟨pkg, h1, h2⟩ := roots_mem hq hps
      exact ⟨pkg, h1, package_kept hin hqd h2⟩

end Verif.Codec.Tidy
