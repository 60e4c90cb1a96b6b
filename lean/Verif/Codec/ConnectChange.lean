import Verif.Codec.Connect
import Verif.Codec.ConnectSpec
import Verif.Codec.FindProof
import Verif.Codec.OlderSpec
/-
Packages in which one element is exchanged.
-/
set_option linter.unusedSimpArgs false
namespace Verif.Codec.Connect
open Verif.Py Verif.Codec Verif.Codec.Spec Verif.Codec.Find Verif.Codec.FindSpec Verif.Codec.ConnectSpec
open Verif.Codec.Older.Spec

theorem name_mk (h : List (String × Val Cls)) (es : List (Val Cls)) (ps : List Pkg) :
    (Pkg.mk h es ps).name = nameOf h := rfl

theorem change_nil (f : Val Cls → Val Cls) (ps : List Pkg) : change f [] ps = ps := by
  cases ps <;> rfl

theorem change_one (f : Val Cls → Val Cls) (m : String) (ps : List Pkg) : change f [m] ps = ps := by
  rw [change]
  conv => rhs; rw [← List.map_id ps]
  refine List.map_congr_left fun p _ => ?_
  cases p with
  | mk h es qs => simp only [change_nil, ite_self, id]

theorem map_other {l : List Pkg} {n : String} {g : Pkg → Pkg} (h : ∀ p ∈ l, p.name ≠ some n)
    (hg : ∀ p, p.name ≠ some n → g p = p) : l.map g = l := by
  conv => rhs; rw [← List.map_id l]
  exact List.map_congr_left fun p hp => hg p (h p hp)

/-- The only one of the name, with those before and behind it. -/
theorem split_name {α : Type} {key : α → Option String} {l : List α} {x : α} {n : String} (hx : x ∈ l)
    (hn : key x = some n) (hd : (l.map key).Nodup) :
    ∃ a b, l = a ++ x :: b ∧ (∀ y ∈ a, key y ≠ some n) ∧ ∀ y ∈ b, key y ≠ some n := by
  obtain ⟨a, b, rfl⟩ := List.append_of_mem hx
  refine ⟨a, b, rfl, ?_, ?_⟩
  · intro y hy he
    rw [List.map_append, List.map_cons] at hd
    exact (List.nodup_append.1 hd).2.2 _ (List.mem_map_of_mem hy) _ (by simp) (he.trans hn.symm)
  · intro y hy he
    rw [List.map_append, List.map_cons] at hd
    have := (List.nodup_append.1 hd).2.1
    rw [List.nodup_cons] at this
    exact this.1 (by rw [hn, ← he]; exact List.mem_map_of_mem hy)

theorem exchanged_in {ps : List Pkg} {way : List String} {p : Pkg} (hp : PackageAt ps way p)
    {v : Val Cls} {m : String} (f : Val Cls → Val Cls) (hv : v ∈ p.elements) (hm : elemName v = some m) :
    WellFormedPkgs ps → (ps.map Pkg.name).Nodup →
    Exchanged v (f v) (way ++ [m]) ps (change f (way ++ [m]) ps) := by
  induction hp with
  | @here ps p n hp hn =>
    intro hw hd
    obtain ⟨a, b, rfl, ha, hb⟩ := split_name hp hn hd
    obtain ⟨h1, -⟩ := wf_parts (wf_mem hw hp)
    cases p with
    | mk h es qs =>
      simp only [Pkg.elements] at hv
      obtain ⟨c, d, rfl, hc, hd'⟩ := split_name hv hm (nodup_left h1)
      rw [List.singleton_append, change, List.map_append, List.map_cons, map_other ha, map_other hb]
      · dsimp only
        rw [if_pos hn]
        simp only [List.map_append, List.map_cons, if_pos hm, change_one]
        have e1 : ∀ l : List (Val Cls), (∀ y ∈ l, elemName y ≠ some m) →
            (l.map fun v => if elemName v = some m then f v else v) = l := by
          intro l hl
          conv => rhs; rw [← List.map_id l]
          exact List.map_congr_left fun y hy => by rw [if_neg (hl y hy)]; rfl
        rw [e1 c hc, e1 d hd']
        exact .element hn hm
      · intro q hq; cases q; simp only [if_neg hq]
      · intro q hq; cases q; simp only [if_neg hq]
  | @inside ps p q n way hp hn ha ih =>
    intro hw hd
    obtain ⟨a, b, rfl, ha', hb⟩ := split_name hp hn hd
    obtain ⟨h1, h2⟩ := wf_parts (wf_mem hw hp)
    have ih := ih hv h2 (nodup_right h1)
    cases p with
    | mk h es qs =>
      rw [List.cons_append, change, List.map_append, List.map_cons, map_other ha', map_other hb]
      · dsimp only
        rw [if_pos hn]
        obtain ⟨k1, k2, l, hl⟩ : ∃ k1 k2 l, way ++ [m] = k1 :: k2 :: l := by
          cases ha with
          | @here _ _ k => exact ⟨k, m, [], rfl⟩
          | @inside _ _ _ k w' _ _ h3 =>
            cases h3 with
            | @here _ _ k' => exact ⟨k, k', [m], rfl⟩
            | @inside _ _ _ k' w'' => exact ⟨k, k', w'' ++ [m], rfl⟩
        rw [hl] at ih ⊢
        exact .inside hn ih
      · intro q hq; cases q; simp only [if_neg hq]
      · intro q hq; cases q; simp only [if_neg hq]

theorem exchanged {ps : List Pkg} {way : List String} {v : Val Cls} (h : ElementAt ps way v)
    (f : Val Cls → Val Cls) (hw : WellFormedPkgs ps) (hd : (ps.map Pkg.name).Nodup) :
    Exchanged v (f v) way ps (change f way ps) := by
  cases h with
  | mk hp hv hm => exact exchanged_in hp f hv hm hw hd

section
variable {u w : Val Cls} {way : List String} {ps ps' : List Pkg}

theorem ex_names (h : Exchanged u w way ps ps') : ps'.map Pkg.name = ps.map Pkg.name := by
  cases h <;> simp [name_mk]

theorem wfs_append : ∀ {a b : List Pkg}, WellFormedPkgs (a ++ b) ↔ WellFormedPkgs a ∧ WellFormedPkgs b
  | [], b => by simp [WellFormedPkgs]
  | p :: a, b => by
    rw [List.cons_append, WellFormedPkgs, WellFormedPkgs, wfs_append, and_assoc]

theorem ex_wf (h : Exchanged u w way ps ps') (hw : ∃ c, isARElement c = true ∧ WellFormed c w)
    (hn : elemName w = elemName u) : WellFormedPkgs ps → WellFormedPkgs ps' := by
  induction h with
  | element h1 h2 =>
    simp only [wfs_append, WellFormedPkgs]
    rintro ⟨a, b, c⟩
    refine ⟨a, ?_, c⟩
    simp only [WellFormedPkg] at b ⊢
    obtain ⟨b1, b2, b3, b4⟩ := b
    refine ⟨b1, ?_, by simpa [hn] using b3, b4⟩
    intro v hv
    rcases List.mem_append.1 hv with hv | hv
    · exact b2 v (by simp [hv])
    · rcases List.mem_cons.1 hv with rfl | hv
      · exact hw
      · exact b2 v (by simp [hv])
  | inside h1 h2 ih =>
    simp only [wfs_append, WellFormedPkgs]
    rintro ⟨a, b, c⟩
    refine ⟨a, ?_, c⟩
    simp only [WellFormedPkg] at b ⊢
    obtain ⟨b1, b2, b3, b4⟩ := b
    exact ⟨b1, b2, by rw [ex_names h2]; exact b3, ih b4⟩

theorem areas_append : ∀ {a b : List Pkg},
    areasNamedPkgs (a ++ b) = (areasNamedPkgs a && areasNamedPkgs b)
  | [], b => by simp [areasNamedPkgs]
  | p :: a, b => by rw [List.cons_append, areasNamedPkgs, areasNamedPkgs, areas_append, Bool.and_assoc]

theorem ex_areas (h : Exchanged u w way ps ps') (hw : areasNamed u = true → areasNamed w = true) :
    areasNamedPkgs ps = true → areasNamedPkgs ps' = true := by
  induction h with
  | element h1 h2 =>
    simp only [areas_append, areasNamedPkgs, areasNamedPkg, Bool.and_eq_true, List.all_append,
      List.all_cons]
    rintro ⟨a, ⟨⟨b1, b2, b3, b4⟩, b5⟩, c⟩
    exact ⟨a, ⟨⟨b1, b2, hw b3, b4⟩, b5⟩, c⟩
  | inside h1 h2 ih =>
    simp only [areas_append, areasNamedPkgs, areasNamedPkg, Bool.and_eq_true]
    rintro ⟨a, ⟨⟨b1, b2⟩, b5⟩, c⟩
    exact ⟨a, ⟨⟨b1, b2⟩, ih b5⟩, c⟩

theorem ex_at (h : Exchanged u w way ps ps') (hn : elemName w = elemName u) : ElementAt ps' way w := by
  induction h with
  | @element n m h b a qs f r h1 h2 =>
    exact .mk (way := [n]) (.here (p := .mk h (b ++ w :: a) qs) (by simp) h1) (by simp [Pkg.elements])
      (hn.trans h2)
  | @inside n way h es qs qs' f r h1 h2 ih =>
    cases ih with
    | mk h3 h4 h5 =>
      exact .mk (way := n :: _) (.inside (p := .mk h es qs') (by simp) h1 h3) h4 h5

/-- Every package is still there, with the same elements except perhaps that one. -/
theorem ex_package (h : Exchanged u w way ps ps') : ∀ {way' : List String} {p : Pkg},
    PackageAt ps way' p → ∃ p', PackageAt ps' way' p' ∧
      ∀ t ∈ p.elements, ∃ t' ∈ p'.elements, t' = t ∨ (t = u ∧ t' = w) := by
  induction h with
  | @element n m h b a qs f r h1 h2 =>
    intro way' p hp
    have hel : ∀ t ∈ (Pkg.mk h (b ++ u :: a) qs).elements, ∃ t' ∈ (Pkg.mk h (b ++ w :: a) qs).elements,
        t' = t ∨ (t = u ∧ t' = w) := by
      intro t ht
      simp only [Pkg.elements, List.mem_append, List.mem_cons] at ht
      rcases ht with ht | rfl | ht
      · exact ⟨t, by simp [Pkg.elements, ht], .inl rfl⟩
      · exact ⟨w, by simp [Pkg.elements], .inr ⟨rfl, rfl⟩⟩
      · exact ⟨t, by simp [Pkg.elements, ht], .inl rfl⟩
    have keep : ∀ q : Pkg, ∀ t ∈ q.elements, ∃ t' ∈ q.elements, t' = t ∨ (t = u ∧ t' = w) :=
      fun q t ht => ⟨t, ht, .inl rfl⟩
    cases hp with
    | here hq hn =>
      simp only [List.mem_append, List.mem_cons] at hq
      rcases hq with hq | rfl | hq
      · exact ⟨_, .here (by simp [hq]) hn, keep _⟩
      · exact ⟨_, .here (p := .mk h (b ++ w :: a) qs) (by simp) hn, hel⟩
      · exact ⟨_, .here (by simp [hq]) hn, keep _⟩
    | inside hq hn hr =>
      simp only [List.mem_append, List.mem_cons] at hq
      rcases hq with hq | rfl | hq
      · exact ⟨_, .inside (by simp [hq]) hn hr, keep _⟩
      · exact ⟨_, .inside (p := .mk h (b ++ w :: a) qs) (by simp) hn hr, keep _⟩
      · exact ⟨_, .inside (by simp [hq]) hn hr, keep _⟩
  | @inside n way h es qs qs' f r h1 h2 ih =>
    intro way' p hp
    have keep : ∀ q : Pkg, ∀ t ∈ q.elements, ∃ t' ∈ q.elements, t' = t ∨ (t = u ∧ t' = w) :=
      fun q t ht => ⟨t, ht, .inl rfl⟩
    cases hp with
    | here hq hn =>
      simp only [List.mem_append, List.mem_cons] at hq
      rcases hq with hq | rfl | hq
      · exact ⟨_, .here (by simp [hq]) hn, keep _⟩
      · exact ⟨_, .here (p := .mk h es qs') (by simp) hn, keep (.mk h es qs')⟩
      · exact ⟨_, .here (by simp [hq]) hn, keep _⟩
    | inside hq hn hr =>
      simp only [List.mem_append, List.mem_cons] at hq
      rcases hq with hq | rfl | hq
      · exact ⟨_, .inside (by simp [hq]) hn hr, keep _⟩
      · obtain ⟨p', h3, h4⟩ := ih hr
        exact ⟨p', .inside (p := .mk h es qs') (by simp) hn h3, h4⟩
      · exact ⟨_, .inside (by simp [hq]) hn hr, keep _⟩

theorem ex_element (h : Exchanged u w way ps ps') (hn : elemName w = elemName u) {way' : List String}
    {t : Val Cls} (ht : ElementAt ps way' t) :
    ∃ t', ElementAt ps' way' t' ∧ (t' = t ∨ (t = u ∧ t' = w)) := by
  cases ht with
  | mk hp hv hm =>
    obtain ⟨p', h1, h2⟩ := ex_package h hp
    obtain ⟨t', h3, h4⟩ := h2 t hv
    refine ⟨t', .mk h1 h3 ?_, h4⟩
    rcases h4 with rfl | ⟨rfl, rfl⟩
    · exact hm
    · exact hn.trans hm

end

end Verif.Codec.Connect
