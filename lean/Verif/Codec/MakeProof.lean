import Verif.Codec.MakeSpec
import Verif.Codec.ConnectMade
import Verif.Codec.ConnectChange
import Verif.Codec.ConstantProof
/-
Lemmas about `make_packages` (C71).
-/
set_option linter.unusedSimpArgs false
namespace Verif.Codec.Make
open Verif.Py Verif.Pkg.Spec Verif.Codec Verif.Codec.Spec Verif.Codec.Find Verif.Codec.FindSpec
open Verif.Codec.MakeSpec
open Verif.Codec.Older.Spec (areasNamedPkg areasNamedPkgs)
open Verif.Codec.Connect (wfs_append areas_append)
open Verif.Codec.Constant (fields_ok)
open Verif.Pkg (absRef_nil absRef_cons)

theorem like_refl (p : Pkg) : Like p p := ⟨rfl, rfl, List.prefix_refl _⟩

theorem like_name {p p' : Pkg} (h : Like p p') : p'.name = p.name := by
  unfold Pkg.name; rw [h.head]

theorem only_refl (R : List String → Prop) (ps : List Pkg) : Only R ps ps :=
  ⟨List.prefix_refl _, fun _ p h => ⟨p, h, like_refl p⟩, fun _ p h => .inl ⟨p, h, like_refl p⟩⟩

theorem only_mono {R S : List String → Prop} (h : ∀ w, R w → S w) {ps ps' : List Pkg} (o : Only R ps ps') :
    Only S ps ps' :=
  ⟨o.first, o.kept, fun w p hp => (o.new w p hp).imp id fun ⟨a, b⟩ => ⟨h _ a, b⟩⟩

theorem pkgAt_mono {ps qs : List Pkg} (h : ∀ p ∈ ps, p ∈ qs) {way : List String} {p : Pkg}
    (hp : PackageAt ps way p) : PackageAt qs way p := by
  cases hp with
  | here h1 h2 => exact .here (h _ h1) h2
  | inside h1 h2 h3 => exact .inside (h _ h1) h2 h3

theorem new_name (n : String) : (newPkg n).name = some n := rfl

/-- The one of the name, or a new one. -/
theorem descend_cases (go : Pkg → Pkg × Except PyErr Pkg) (n : String) : ∀ ps : List Pkg,
    (∃ a q b, ps = a ++ q :: b ∧ (∀ x ∈ a, x.name ≠ some n) ∧ q.name = some n ∧
      descend go n ps = (a ++ (go q).1 :: b, (go q).2)) ∨
    (some n ∉ ps.map Pkg.name ∧ descend go n ps = (ps ++ [(go (newPkg n)).1], (go (newPkg n)).2)) := by
  intro ps
  induction ps with
  | nil => exact .inr ⟨by simp, rfl⟩
  | cons q qs ih =>
    rw [descend]
    by_cases hq : q.name = some n
    · exact .inl ⟨[], q, qs, rfl, by simp, hq, by rw [if_pos hq]; rfl⟩
    · rw [if_neg hq]
      rcases ih with ⟨a, x, b, h1, h2, h3, h4⟩ | ⟨h1, h2⟩
      · refine .inl ⟨q :: a, x, b, by rw [h1]; rfl, ?_, h3, by rw [h4]; rfl⟩
        intro y hy
        rcases List.mem_cons.1 hy with rfl | hy
        · exact hq
        · exact h2 y hy
      · refine .inr ⟨?_, by rw [h2]; rfl⟩
        rw [List.map_cons, List.mem_cons]
        rintro (h | h)
        · exact hq h.symm
        · exact h1 h

theorem one_named {a b : List Pkg} {q x : Pkg} {n : String} (hd : ((a ++ q :: b).map Pkg.name).Nodup)
    (hq : q.name = some n) (hx : x ∈ a ++ q :: b) (hn : x.name = some n) : x = q := by
  rw [List.map_append, List.map_cons, List.nodup_append, List.nodup_cons] at hd
  obtain ⟨-, ⟨h1, -⟩, h2⟩ := hd
  rcases List.mem_append.1 hx with h | h
  · exact absurd (hn.trans hq.symm) (h2 _ (List.mem_map_of_mem h) _ (by simp))
  · rcases List.mem_cons.1 h with h | h
    · exact h
    · exact absurd (List.mem_map.2 ⟨x, h, hn.trans hq.symm⟩) h1

theorem descend_only {go : Pkg → Pkg × Except PyErr Pkg} {n : String} {ps : List Pkg} {R : List String → Prop}
    (hd : (ps.map Pkg.name).Nodup)
    (hg : ∀ p, p ∈ ps ∨ p = newPkg n → Like p (go p).1 ∧ Only R p.packages (go p).1.packages) :
    Only (fun w => ∃ w', w = n :: w' ∧ (w' = [] ∨ R w')) ps (descend go n ps).1 := by
  rcases descend_cases go n ps with ⟨a, q, b, rfl, h2, h3, h4⟩ | ⟨h1, h2⟩
  · rw [h4]
    obtain ⟨l, o⟩ := hg q (.inl (by simp))
    have hname := like_name l
    refine ⟨by simp [hname], fun w p hp => ?_, fun w p' hp => ?_⟩
    · cases hp with
      | @here _ _ m hm hn =>
        by_cases e : p = q
        · subst e
          exact ⟨_, .here (p := (go p).1) (by simp) (hname.trans hn), l⟩
        · refine ⟨p, .here ?_ hn, like_refl p⟩
          simp only [List.mem_append, List.mem_cons] at hm ⊢
          rcases hm with h | h | h
          · exact .inl h
          · exact absurd h e
          · exact .inr (.inr h)
      | @inside _ x _ m w hm hn hin =>
        by_cases e : x = q
        · subst e
          obtain ⟨p', h5, h6⟩ := o.kept _ _ hin
          exact ⟨p', .inside (p := (go x).1) (by simp) (hname.trans hn) h5, h6⟩
        · refine ⟨p, .inside (p := x) ?_ hn hin, like_refl p⟩
          simp only [List.mem_append, List.mem_cons] at hm ⊢
          rcases hm with h | h | h
          · exact .inl h
          · exact absurd h e
          · exact .inr (.inr h)
    · have hmem : ∀ x, x ∈ a ++ (go q).1 :: b → x = (go q).1 ∨ x ∈ a ++ q :: b := by
        intro x hx
        simp only [List.mem_append, List.mem_cons] at hx ⊢
        rcases hx with h | h | h
        · exact .inr (.inl h)
        · exact .inl h
        · exact .inr (.inr (.inr h))
      cases hp with
      | @here _ _ m hm hn =>
        rcases hmem _ hm with rfl | h
        · exact .inl ⟨q, .here (by simp) (hname.symm.trans hn), l⟩
        · exact .inl ⟨p', .here h hn, like_refl _⟩
      | @inside _ x _ m w hm hn hin =>
        rcases hmem _ hm with rfl | h
        · have e : m = n := by
            rw [hname, h3] at hn
            exact (Option.some.inj hn).symm
          subst e
          rcases o.new _ _ hin with ⟨p, h5, h6⟩ | ⟨h5, h6, h7, k, h8, h9⟩
          · exact .inl ⟨p, .inside (p := q) (by simp) h3 h5, h6⟩
          · refine .inr ⟨⟨w, rfl, .inr h5⟩, fun p hp => ?_, h7, k, ?_, h9⟩
            · cases hp with
              | here => cases hin
              | @inside _ y _ _ _ hy hyn hyin =>
                have := one_named hd h3 hy hyn
                subst this
                exact h6 _ hyin
            · cases w with
              | nil => cases hin
              | cons a w => rw [List.getLast?_cons_cons]; exact h8
        · exact .inl ⟨p', .inside h hn hin, like_refl _⟩
  · rw [h2]
    obtain ⟨l, o⟩ := hg _ (.inr rfl)
    have hname := like_name l
    have hno : ∀ w p, ¬ PackageAt ps (n :: w) p := by
      intro w p hp
      cases hp with
      | here h5 h6 => exact h1 (List.mem_map.2 ⟨_, h5, h6⟩)
      | inside h5 h6 => exact h1 (List.mem_map.2 ⟨_, h5, h6⟩)
    refine ⟨by simp, fun w p hp => ⟨p, pkgAt_mono (by intro x hx; simp [hx]) hp, like_refl p⟩,
      fun w p' hp => ?_⟩
    cases hp with
    | @here _ _ m hm hn =>
      rcases List.mem_append.1 hm with h | h
      · exact .inl ⟨p', .here h hn, like_refl _⟩
      · rw [List.mem_singleton] at h
        subst h
        have e : m = n := by
          rw [hname, new_name] at hn
          exact (Option.some.inj hn).symm
        subst e
        exact .inr ⟨⟨[], rfl, .inl rfl⟩, hno _, l.elements, m, rfl, l.head⟩
    | @inside _ x _ m w hm hn hin =>
      rcases List.mem_append.1 hm with h | h
      · exact .inl ⟨p', .inside h hn hin, like_refl _⟩
      · rw [List.mem_singleton] at h
        subst h
        have e : m = n := by
          rw [hname, new_name] at hn
          exact (Option.some.inj hn).symm
        subst e
        rcases o.new _ _ hin with ⟨p, h5, h6⟩ | ⟨h5, h6, h7, k, h8, h9⟩
        · cases h5 with
          | here h => cases h
          | inside h => cases h
        · refine .inr ⟨⟨w, rfl, .inr h5⟩, hno _, h7, k, ?_, h9⟩
          cases w with
          | nil => cases hin
          | cons a w => rw [List.getLast?_cons_cons]; exact h8

/-- Well-formed, or just made. -/
def Tidy (p : Pkg) : Prop := WellFormedPkg p ∨ ∃ n, p = newPkg n

theorem tidy_in {p : Pkg} (h : Tidy p) : (p.packages.map Pkg.name).Nodup ∧ ∀ q ∈ p.packages, Tidy q := by
  rcases h with h | ⟨n, rfl⟩
  · obtain ⟨h1, h2⟩ := wf_parts h
    exact ⟨(List.nodup_append.1 h1).2.1, fun q hq => .inl (wf_mem h2 hq)⟩
  · exact ⟨List.nodup_nil, fun q hq => absurd hq (by simp [newPkg, Pkg.packages])⟩

/-- The same with the list of names in place of the text. -/
def makeWay : List String → Pkg → Pkg × Except PyErr Pkg
  | [], p => (p, .ok p)
  | n :: w, .mk h es ps =>
    if some n ∈ es.map elemName then (.mk h es ps, .error .keyError)
    else (.mk h es (descend (makeWay w) n ps).1, (descend (makeWay w) n ps).2)

theorem makeIn_way (way : List String) : way ≠ [] → (∀ n ∈ way, GoodName n) → ∀ (fuel : Nat),
    (relRef way).toList.length < fuel → ∀ p, makeIn fuel p (relRef way).toList = makeWay way p := by
  induction way with
  | nil => exact fun h => absurd rfl h
  | cons n w ih =>
    intro _ hg fuel hf p
    have hn := hg n (by simp)
    have hw : ∀ m ∈ w, GoodName m := fun m hm => hg m (by simp [hm])
    have hs : stripLead '/' (relRef (n :: w)).toList = (relRef (n :: w)).toList := rel_strip n w hn
    have hc := rel_cons n w hn
    rw [hs] at hc
    cases fuel with
    | zero => omega
    | succ fuel =>
      cases p with
      | mk h es ps =>
        have hst : startsWithL '/' (relRef (n :: w)).toList = false := by
          cases hl : (relRef (n :: w)).toList with
          | nil => rfl
          | cons c cs =>
            rw [hl] at hs
            by_cases hcc : c = '/'
            · rw [stripLead, if_pos hcc] at hs
              exact absurd (congrArg List.length hs) (by simp)
            · simp [startsWithL, hcc]
        rw [makeIn, makeWay, hst, hc]
        simp only [String.ofList_toList, Bool.false_eq_true, if_false]
        have hgo : (fun q => if (relRef w).toList ≠ [] then makeIn fuel q (relRef w).toList else (q, .ok q)) =
            makeWay w := by
          funext q
          by_cases hw0 : w = []
          · subst hw0; rfl
          · rw [if_pos (rel_ne hw0 hw)]
            refine ih hw0 hw fuel ?_ q
            have := partL_length_lt '/' (relRef (n :: w)).toList (by rw [hc]; exact rel_ne hw0 hw)
            rw [hc] at this
            simp only at this
            omega
        rw [hgo]

theorem make_way {way : List String} (h : way ≠ []) (hg : ∀ n ∈ way, GoodName n) (ps : List Pkg) (t : String)
    (ht : t = absRef way ∨ t = relRef way) : make ps t =
      match way with
      | [] => (ps, .error .valueError)
      | n :: w => descend (makeWay w) n ps := by
  cases way with
  | nil => exact absurd rfl h
  | cons n w =>
    have hn := hg n (by simp)
    have hw : ∀ m ∈ w, GoodName m := fun m hm => hg m (by simp [hm])
    have hp : partL '/' (stripLead '/' t.toList) = (n.toList, (relRef w).toList) := by
      rcases ht with rfl | rfl
      · rw [abs_rel h, ← rel_cons n w hn, rel_strip n w hn]
      · exact rel_cons n w hn
    unfold make
    rw [hp]
    simp only [String.ofList_toList]
    congr 1
    funext q
    by_cases hw0 : w = []
    · subst hw0; rfl
    · rw [if_pos (rel_ne hw0 hw)]
      exact makeIn_way w hw0 hw _ (Nat.lt_succ_self _) q

theorem makeWay_only (way : List String) : ∀ p, Tidy p →
    Like p (makeWay way p).1 ∧ Only (· <+: way) p.packages (makeWay way p).1.packages := by
  induction way with
  | nil => exact fun p _ => ⟨like_refl p, only_refl _ _⟩
  | cons n w ih =>
    intro p hp
    cases p with
    | mk h es ps =>
      rw [makeWay]
      split
      · exact ⟨like_refl _, only_refl _ _⟩
      · obtain ⟨h1, h2⟩ := tidy_in hp
        have := descend_only (go := makeWay w) (n := n) h1 fun q hq => ih q
          (hq.elim (h2 q) fun e => .inr ⟨n, e⟩)
        exact ⟨⟨rfl, rfl, this.first⟩, only_mono (fun v ⟨v', e, hv⟩ => by
          subst e
          rcases hv with rfl | hv
          · exact ⟨w, rfl⟩
          · obtain ⟨t, ht⟩ := hv; exact ⟨t, by rw [← ht]; rfl⟩) this⟩

theorem makeIn_only (fuel : Nat) : ∀ p ref, Tidy p →
    Like p (makeIn fuel p ref).1 ∧ Only (fun _ => True) p.packages (makeIn fuel p ref).1.packages := by
  induction fuel with
  | zero => exact fun p ref _ => ⟨like_refl p, only_refl _ _⟩
  | succ fuel ih =>
    intro p ref hp
    cases p with
    | mk h es ps =>
      rw [makeIn]
      split
      · exact ⟨like_refl _, only_refl _ _⟩
      · split
        · exact ⟨like_refl _, only_refl _ _⟩
        · obtain ⟨h1, h2⟩ := tidy_in hp
          have := descend_only (R := fun _ => True) (go := fun q => if (partL '/' ref).2 ≠ [] then
            makeIn fuel q (partL '/' ref).2 else (q, .ok q)) (n := String.ofList (partL '/' ref).1) h1 fun q hq => by
              split
              · exact ih q _ (hq.elim (h2 q) fun e => .inr ⟨_, e⟩)
              · exact ⟨like_refl _, only_refl _ _⟩
          exact ⟨⟨rfl, rfl, this.first⟩, only_mono (fun _ _ => trivial) this⟩

theorem make_only {ps : List Pkg} (hw : WellFormedPkgs ps) (hd : (ps.map Pkg.name).Nodup) (t : String) :
    Only (fun _ => True) ps (make ps t).1 := by
  unfold make
  refine only_mono (fun _ _ => trivial) (descend_only (R := fun _ => True) hd fun q hq => ?_)
  split
  · exact makeIn_only _ q _ (hq.elim (fun h => .inl (wf_mem hw h)) fun e => .inr ⟨_, e⟩)
  · exact ⟨like_refl _, only_refl _ _⟩

theorem make_way_only {ps : List Pkg} (hw : WellFormedPkgs ps) (hd : (ps.map Pkg.name).Nodup) (n : String)
    (w : List String) : Only (· <+: n :: w) ps (descend (makeWay w) n ps).1 :=
  only_mono (fun v ⟨v', e, hv⟩ => by
    subst e
    rcases hv with rfl | hv
    · exact ⟨w, rfl⟩
    · obtain ⟨t, ht⟩ := hv; exact ⟨t, by rw [← ht]; rfl⟩)
    (descend_only hd fun q hq => makeWay_only w q (hq.elim (fun h => .inl (wf_mem hw h)) fun e => .inr ⟨n, e⟩))

/-- Elements are where they were. -/
theorem only_elements {R : List String → Prop} {ps ps' : List Pkg} (o : Only R ps ps') (way : List String)
    (v : Val Cls) : ElementAt ps' way v ↔ ElementAt ps way v := by
  constructor
  · rintro ⟨h1, h2, h3⟩
    rcases o.new _ _ h1 with ⟨p, h4, h5⟩ | ⟨-, -, h4, -⟩
    · exact .mk h4 (h5.elements ▸ h2) h3
    · rw [h4] at h2; cases h2
  · rintro ⟨h1, h2, h3⟩
    obtain ⟨p', h4, h5⟩ := o.kept _ _ h1
    exact .mk h4 (h5.elements.symm ▸ h2) h3

/-! ### What is returned -/

theorem makeWay_made (way : List String) : ∀ p,
    (∀ m w, (m :: w) <+: way → some m ∉ p.elements.map elemName) →
    (∀ w v, w <+: way → ¬ ElementAt p.packages w v) →
    ∃ r, (makeWay way p).2 = .ok r ∧
      ((way = [] ∧ r = (makeWay way p).1) ∨ PackageAt (makeWay way p).1.packages way r) := by
  induction way with
  | nil => exact fun p _ _ => ⟨p, rfl, .inl ⟨rfl, rfl⟩⟩
  | cons n w ih =>
    intro p h1 h2
    cases p with
    | mk h es ps =>
      rw [makeWay, if_neg (show some n ∉ es.map elemName from h1 n w (List.prefix_refl _))]
      simp only [Pkg.packages] at h2 ⊢
      rcases descend_cases (makeWay w) n ps with ⟨a, q, b, rfl, h3, h4, h5⟩ | ⟨h3, h4⟩
      · obtain ⟨r, r1, r2⟩ := ih q (fun m v hv hm => by
          obtain ⟨x, hx, hxm⟩ := List.mem_map.1 hm
          refine h2 [n, m] x ?_ (.mk (way := [n]) (.here (p := q) (by simp) h4) hx hxm)
          obtain ⟨t, ht⟩ := hv
          exact ⟨v ++ t, by rw [← ht]; rfl⟩) (fun v x hv hx => by
          refine h2 (n :: v) x ?_ ?_
          · obtain ⟨t, ht⟩ := hv; exact ⟨t, by rw [← ht]; rfl⟩
          · cases hx with
            | mk g1 g2 g3 => exact .mk (way := n :: _) (.inside (p := q) (by simp) h4 g1) g2 g3)
        rw [h5]
        have hq : (makeWay w q).1.name = some n := by
          have : (makeWay w q).1.name = q.name := by
            cases q with
            | mk a b c =>
              cases w with
              | nil => rfl
              | cons m w => rw [makeWay]; split <;> rfl
          rw [this, h4]
        refine ⟨r, r1, .inr ?_⟩
        rcases r2 with ⟨rfl, rfl⟩ | r2
        · exact .here (List.mem_append_right _ (List.mem_cons_self ..)) hq
        · exact .inside (p := (makeWay w q).1) (by simp) hq r2
      · obtain ⟨r, r1, r2⟩ := ih (newPkg n) (fun m v _ hm => by simp [newPkg, Pkg.elements] at hm)
          (fun v x _ hx => by
            cases hx with
            | mk g1 => cases g1 with
              | here g => cases g
              | inside g => cases g)
        rw [h4]
        have hq : (makeWay w (newPkg n)).1.name = some n := by
          cases w with
          | nil => rfl
          | cons m w => rw [newPkg, makeWay]; split <;> rfl
        refine ⟨r, r1, .inr ?_⟩
        rcases r2 with ⟨rfl, rfl⟩ | r2
        · exact .here (by simp) hq
        · exact .inside (p := (makeWay w (newPkg n)).1) (by simp) hq r2

/-- Nothing happens to the packages if nothing happens to the one of the name. -/
theorem descend_same {go : Pkg → Pkg × Except PyErr Pkg} {n : String} {ps : List Pkg} {q : Pkg} {r : Except PyErr Pkg}
    (hd : (ps.map Pkg.name).Nodup) (hq : q ∈ ps) (hn : q.name = some n) (hg : go q = (q, r)) :
    descend go n ps = (ps, r) := by
  rcases descend_cases go n ps with ⟨a, x, b, rfl, h2, h3, h4⟩ | ⟨h1, h2⟩
  · have := one_named hd h3 hq hn
    subst this
    rw [h4, hg]
  · exact absurd (List.mem_map.2 ⟨q, hq, hn⟩) h1

/-- A package that is there already is returned. -/
theorem descend_there {ps : List Pkg} {way : List String} {p : Pkg} (h : PackageAt ps way p) :
    WellFormedPkgs ps → (ps.map Pkg.name).Nodup → ∀ n w, way = n :: w → ∀ rest r, makeWay rest p = (p, r) →
      descend (makeWay (w ++ rest)) n ps = (ps, r) := by
  induction h with
  | @here ps p n h1 h2 =>
    intro hw hd m w e rest r hr
    cases e
    exact descend_same hd h1 h2 hr
  | @inside ps p q n way h1 h2 h3 ih =>
    intro hw hd m w e rest r hr
    cases e
    obtain ⟨h4, h5⟩ := wf_parts (wf_mem hw h1)
    cases way with
    | nil => cases h3
    | cons k way =>
      have := ih h5 (List.nodup_append.1 h4).2.1 k way rfl rest r hr
      refine descend_same hd h1 h2 ?_
      have hk : some k ∉ p.elements.map elemName := fun hm =>
        (List.nodup_append.1 h4).2.2 _ hm _ (by
          cases h3 with
          | here g1 g2 => exact List.mem_map.2 ⟨_, g1, g2⟩
          | inside g1 g2 => exact List.mem_map.2 ⟨_, g1, g2⟩) rfl
      cases p with
      | mk a es qs =>
        simp only [Pkg.packages, Pkg.elements] at this hk
        rw [List.cons_append, makeWay, if_neg hk, this]

theorem make_outcome (fuel : Nat) : ∀ p ref e, ref.length < fuel → (makeIn fuel p ref).2 = .error e →
    e = .keyError ∨ e = .valueError := by
  induction fuel with
  | zero => intro p ref e h; omega
  | succ fuel ih =>
    intro p ref e hl he
    cases p with
    | mk h es ps =>
      rw [makeIn] at he
      split at he
      · cases he; exact .inr rfl
      · split at he
        · cases he; exact .inl rfl
        · have hgo : ∀ q, (if (partL '/' ref).2 ≠ [] then makeIn fuel q (partL '/' ref).2 else (q, .ok q)).2 =
              .error e → e = .keyError ∨ e = .valueError := by
            intro q hq
            split at hq
            · rename_i h
              exact ih q _ e (by have := partL_length_lt '/' ref h; omega) hq
            · cases hq
          rcases descend_cases (fun q => if (partL '/' ref).2 ≠ [] then makeIn fuel q (partL '/' ref).2 else (q, .ok q))
            (String.ofList (partL '/' ref).1) ps with ⟨a, x, b, -, -, -, h4⟩ | ⟨-, h4⟩
          · simp only [h4] at he; exact hgo _ he
          · simp only [h4] at he; exact hgo _ he

/-! ### Slashes -/

theorem descend_after {go go' : Pkg → Pkg × Except PyErr Pkg} {n : String} (f : Except PyErr Pkg → Except PyErr Pkg)
    (h : ∀ q, go' q = ((go q).1, f (go q).2)) (ps : List Pkg) :
    descend go' n ps = ((descend go n ps).1, f (descend go n ps).2) := by
  induction ps with
  | nil => simp only [descend, h]
  | cons q qs ih =>
    rw [descend, descend]
    split
    · rw [h]
    · rw [ih]

/-- What comes of it if the text goes on after a slash. -/
def after : List Char → Except PyErr Pkg → Except PyErr Pkg
  | [], r => r
  | _ :: _, .ok _ => .error .valueError
  | _ :: _, r => r

theorem part_slash {n : String} {w : List String} (hn : GoodName n) (tail : List Char) :
    partL '/' ((relRef (n :: w)).toList ++ '/' :: tail) =
      (n.toList, if w = [] then tail else (relRef w).toList ++ '/' :: tail) := by
  cases w with
  | nil =>
    have : (relRef [n]).toList = n.toList := by simp [relRef, absRef_nil]
    rw [this, partL_append _ _ _ hn.2]
    rfl
  | cons m ms =>
    have : (relRef (n :: m :: ms)).toList = n.toList ++ '/' :: (relRef (m :: ms)).toList := by
      simp [relRef, absRef_cons, String.toList_append]
    rw [this, List.append_assoc, List.cons_append, partL_append _ _ _ hn.2, if_neg (by simp)]

theorem starts_false {n : String} {w : List String} (hn : GoodName n) (l : List Char) :
    startsWithL '/' ((relRef (n :: w)).toList ++ l) = false := by
  cases hc : n.toList with
  | nil => exact absurd (String.toList_inj.1 hc) hn.1
  | cons c cs =>
    have : c ≠ '/' := fun h => hn.2 (by rw [hc, h]; simp)
    simp [relRef, String.toList_append, hc, startsWithL, this]

theorem makeIn_slash (way : List String) (tail : List Char) (ht : ∀ c cs, tail = c :: cs → c = '/') :
    way ≠ [] → (∀ n ∈ way, GoodName n) → ∀ fuel, ((relRef way).toList ++ '/' :: tail).length < fuel → ∀ p,
      makeIn fuel p ((relRef way).toList ++ '/' :: tail) = ((makeWay way p).1, after tail (makeWay way p).2) := by
  induction way with
  | nil => exact fun h => absurd rfl h
  | cons n w ih =>
    intro _ hg fuel hf p
    have hn := hg n (by simp)
    have hw : ∀ m ∈ w, GoodName m := fun m hm => hg m (by simp [hm])
    have hp := part_slash (w := w) hn tail
    cases fuel with
    | zero => omega
    | succ fuel =>
      cases p with
      | mk h es ps =>
        rw [makeIn, makeWay, starts_false hn, hp]
        simp only [String.ofList_toList, Bool.false_eq_true, if_false]
        split
        · cases tail <;> rfl
        · rw [descend_after (go := makeWay w) (after tail)]
          intro q
          by_cases hw0 : w = []
          · subst hw0
            simp only [if_true]
            cases tail with
            | nil => rfl
            | cons c cs =>
              obtain rfl := ht c cs rfl
              rw [if_pos (by simp)]
              cases fuel with
              | zero => simp at hf
              | succ fuel =>
                cases q with
                | mk a b c => simp only [makeIn, startsWithL, makeWay, after]; rfl
          · simp only [if_neg hw0]
            rw [if_pos (by simp)]
            refine ih hw0 hw fuel ?_ q
            have := partL_length_lt '/' ((relRef (n :: w)).toList ++ '/' :: tail) (by
              rw [hp, if_neg hw0]; simp)
            rw [hp, if_neg hw0] at this
            simp only at this
            omega

theorem make_slash {way : List String} (h : way ≠ []) (hg : ∀ n ∈ way, GoodName n) (ps : List Pkg) (t s : String)
    (ht : t = absRef way ∨ t = relRef way) (hs : ∀ c cs, s.toList = c :: cs → c = '/') :
    make ps (t ++ "/" ++ s) = ((make ps t).1, after s.toList (make ps t).2) := by
  rw [make_way h hg ps t ht]
  cases way with
  | nil => exact absurd rfl h
  | cons n w =>
    have hn := hg n (by simp)
    have hw : ∀ m ∈ w, GoodName m := fun m hm => hg m (by simp [hm])
    have hp : partL '/' (stripLead '/' (t ++ "/" ++ s).toList) =
        (n.toList, if w = [] then s.toList else (relRef w).toList ++ '/' :: s.toList) := by
      have e : stripLead '/' (t ++ "/" ++ s).toList = (relRef (n :: w)).toList ++ '/' :: s.toList := by
        rcases ht with rfl | rfl
        · simp [absRef_cons, relRef, String.toList_append, stripLead]
        · have := starts_false (w := w) hn ('/' :: s.toList)
          have e : (relRef (n :: w) ++ "/" ++ s).toList = (relRef (n :: w)).toList ++ '/' :: s.toList := by
            simp [String.toList_append]
          rw [e]
          cases hl : (relRef (n :: w)).toList ++ '/' :: s.toList with
          | nil => rfl
          | cons c cs =>
            rw [hl] at this
            simp only [startsWithL, decide_eq_false_iff_not] at this
            rw [stripLead, if_neg this]
      rw [e]
      exact part_slash hn _
    unfold make
    rw [hp]
    simp only [String.ofList_toList]
    refine descend_after (after s.toList) (fun q => ?_) ps
    by_cases hw0 : w = []
    · subst hw0
      simp only [if_true]
      cases hl : s.toList with
      | nil => rfl
      | cons c cs =>
        obtain rfl := hs c cs hl
        rw [if_pos (by simp)]
        cases q with
        | mk a b c => simp only [makeIn, startsWithL, makeWay, after]; rfl
    · simp only [if_neg hw0]
      rw [if_pos (by simp)]
      exact makeIn_slash w _ hs hw0 hw _ (Nat.lt_succ_self _) q

/-! ### Twice -/

theorem descend_twice {go : Pkg → Pkg × Except PyErr Pkg} {n : String} {r : Pkg}
    (hg : ∀ p, (go p).2 = .ok r → go (go p).1 = ((go p).1, .ok r)) (hname : ∀ p, (go p).1.name = p.name) :
    ∀ ps, (descend go n ps).2 = .ok r → descend go n (descend go n ps).1 = ((descend go n ps).1, .ok r) := by
  intro ps
  induction ps with
  | nil =>
    intro h
    simp only [descend] at h ⊢
    rw [if_pos ((hname _).trans (new_name n)), hg _ h]
  | cons q qs ih =>
    intro h
    rw [descend] at h ⊢
    by_cases hq : q.name = some n
    · simp only [if_pos hq] at h ⊢
      rw [descend, if_pos ((hname _).trans hq), hg _ h]
    · simp only [if_neg hq] at h ⊢
      rw [descend, if_neg hq, ih h]

theorem makeIn_name (fuel : Nat) (p : Pkg) (ref : List Char) : (makeIn fuel p ref).1.name = p.name := by
  cases fuel with
  | zero => rfl
  | succ fuel =>
    cases p with
    | mk h es ps =>
      rw [makeIn]
      split
      · rfl
      · split <;> rfl

theorem makeIn_twice (fuel : Nat) : ∀ p ref r, (makeIn fuel p ref).2 = .ok r →
    makeIn fuel (makeIn fuel p ref).1 ref = ((makeIn fuel p ref).1, .ok r) := by
  induction fuel with
  | zero => intro p ref r h; cases h
  | succ fuel ih =>
    intro p ref r h
    cases p with
    | mk hd es ps =>
      by_cases h1 : startsWithL '/' ref = true
      · rw [makeIn, if_pos h1] at h; cases h
      · by_cases h2 : some (String.ofList (partL '/' ref).1) ∈ es.map elemName
        · rw [makeIn, if_neg h1, if_pos h2] at h; cases h
        · have e : ∀ l, makeIn (fuel + 1) (.mk hd es l) ref = (.mk hd es (descend (fun q =>
              if (partL '/' ref).2 ≠ [] then makeIn fuel q (partL '/' ref).2 else (q, .ok q))
              (String.ofList (partL '/' ref).1) l).1, (descend (fun q =>
              if (partL '/' ref).2 ≠ [] then makeIn fuel q (partL '/' ref).2 else (q, .ok q))
              (String.ofList (partL '/' ref).1) l).2) := fun l => by rw [makeIn, if_neg h1, if_neg h2]
          rw [e] at h ⊢
          rw [e, descend_twice (r := r) (fun p hp => by
              by_cases h3 : (partL '/' ref).2 ≠ []
              · simp only [if_pos h3] at hp ⊢; exact ih _ _ _ hp
              · simp only [if_neg h3] at hp ⊢; rw [Except.ok.inj hp]) (fun p => by
              by_cases h3 : (partL '/' ref).2 ≠ []
              · simp only [if_pos h3]; exact makeIn_name _ _ _
              · simp only [if_neg h3]) ps h]

theorem make_twice (ps : List Pkg) (t : String) (r : Pkg) (h : (make ps t).2 = .ok r) :
    make (make ps t).1 t = ((make ps t).1, .ok r) := by
  unfold make at h ⊢
  refine descend_twice (fun p hp => ?_) (fun p => ?_) ps h
  · split at hp
    · rename_i h3
      simp only [if_pos h3]; exact makeIn_twice _ _ _ _ hp
    · rename_i h3
      simp only [if_neg h3]; rw [Except.ok.inj hp]
  · split
    · exact makeIn_name _ _ _
    · rfl

/-! ### Saving and loading -/

theorem new_norm (n : String) : normPkg (newPkg n) = newPkg n := by
  simp only [newPkg, normPkg, normPkgs, List.map_nil]
  rfl

theorem descend_norm {go : Pkg → Pkg × Except PyErr Pkg} {n : String}
    (hg : ∀ p, go (normPkg p) = (normPkg (go p).1, (go p).2.map normPkg)) :
    ∀ ps, descend go n (normPkgs ps) = (normPkgs (descend go n ps).1, (descend go n ps).2.map normPkg) := by
  intro ps
  induction ps with
  | nil =>
    have := hg (newPkg n)
    rw [new_norm] at this
    simp only [normPkgs, descend]
    have h1 : (go (newPkg n)).1 = normPkg (go (newPkg n)).1 := congrArg Prod.fst this
    have h2 : (go (newPkg n)).2 = (go (newPkg n)).2.map normPkg := congrArg Prod.snd this
    rw [← h1, ← h2]
  | cons q qs ih =>
    rw [normPkgs, descend, descend, name_norm]
    by_cases hq : q.name = some n
    · simp only [if_pos hq, hg, normPkgs]
    · simp only [if_neg hq, ih, normPkgs]

theorem makeIn_norm (fuel : Nat) : ∀ p ref,
    makeIn fuel (normPkg p) ref = (normPkg (makeIn fuel p ref).1, (makeIn fuel p ref).2.map normPkg) := by
  induction fuel with
  | zero => intro p ref; rfl
  | succ fuel ih =>
    intro p ref
    cases p with
    | mk h es ps =>
      have he : (es.map (normVal tables false)).map elemName = es.map elemName := by
        rw [List.map_map]; exact List.map_congr_left fun v _ => elemName_norm false v
      rw [normPkg, makeIn, makeIn, he]
      split
      · rw [normPkg]; rfl
      · split
        · rw [normPkg]; rfl
        · simp only
          rw [descend_norm (fun p => by
            by_cases h3 : (partL '/' ref).2 ≠ []
            · simp only [if_pos h3]; exact ih _ _
            · simp only [if_neg h3]; rfl)]
          rw [normPkg]

theorem make_norm (ps : List Pkg) (t : String) :
    make (normPkgs ps) t = (normPkgs (make ps t).1, (make ps t).2.map normPkg) := by
  unfold make
  refine descend_norm (fun p => ?_) ps
  split
  · exact makeIn_norm _ _ _
  · rfl

/-! ### Well-formed documents -/

theorem new_wf {n : String} (h1 : n ≠ "") (h2 : plainText n = true) : WellFormedPkg (newPkg n) := by
  rw [newPkg, WellFormedPkg]
  refine ⟨Connect.obj_wf rfl (fields_ok (f := Schema.req "name" [.str]) rfl (Connect.name_ok h1) rfl) ?_,
    by simp, by simp, by simp [WellFormedPkgs]⟩
  simp [plainFields, plainVal, h2, xmlAttrs]

theorem new_areas (n : String) : areasNamedPkg (newPkg n) = true := rfl

theorem descend_wf {go : Pkg → Pkg × Except PyErr Pkg} {n : String} {ps : List Pkg}
    (hw : WellFormedPkgs ps) (hn : WellFormedPkg (newPkg n)) (hg : ∀ p, WellFormedPkg p → WellFormedPkg (go p).1)
    (hname : ∀ p, (go p).1.name = p.name) :
    WellFormedPkgs (descend go n ps).1 ∧ ((descend go n ps).1.map Pkg.name = ps.map Pkg.name ∨
      (some n ∉ ps.map Pkg.name ∧ (descend go n ps).1.map Pkg.name = ps.map Pkg.name ++ [some n])) := by
  rcases descend_cases go n ps with ⟨a, q, b, rfl, h2, h3, h4⟩ | ⟨h1, h2⟩
  · rw [h4]
    obtain ⟨g1, g2⟩ := wfs_append.1 hw
    rw [WellFormedPkgs] at g2
    exact ⟨wfs_append.2 ⟨g1, by rw [WellFormedPkgs]; exact ⟨hg _ g2.1, g2.2⟩⟩, .inl (by simp [hname])⟩
  · rw [h2]
    exact ⟨wfs_append.2 ⟨hw, by simp only [WellFormedPkgs]; exact ⟨hg _ hn, trivial⟩⟩,
      .inr ⟨h1, by simp [hname, new_name]⟩⟩

theorem descend_areas {go : Pkg → Pkg × Except PyErr Pkg} {n : String} {ps : List Pkg}
    (hw : areasNamedPkgs ps = true) (hg : ∀ p, areasNamedPkg p = true → areasNamedPkg (go p).1 = true) :
    areasNamedPkgs (descend go n ps).1 = true := by
  rcases descend_cases go n ps with ⟨a, q, b, rfl, h2, h3, h4⟩ | ⟨h1, h2⟩
  · rw [h4]
    simp only [areas_append, areasNamedPkgs, Bool.and_eq_true] at hw ⊢
    exact ⟨hw.1, hg _ hw.2.1, hw.2.2⟩
  · rw [h2]
    simp only [areas_append, areasNamedPkgs, Bool.and_eq_true]
    exact ⟨hw, hg _ (new_areas n), trivial⟩

theorem makeWay_name (way : List String) (p : Pkg) : (makeWay way p).1.name = p.name := by
  cases p with
  | mk a b c =>
    cases way with
    | nil => rfl
    | cons m w => rw [makeWay]; split <;> rfl

theorem makeWay_wf (way : List String) : (∀ n ∈ way, GoodName n ∧ plainText n = true) → ∀ p, WellFormedPkg p →
    WellFormedPkg (makeWay way p).1 := by
  induction way with
  | nil => exact fun _ p h => h
  | cons n w ih =>
    intro hg p hp
    have hn := hg n (by simp)
    cases p with
    | mk h es ps =>
      rw [makeWay]
      split
      · exact hp
      · rename_i hes
        rw [WellFormedPkg] at hp ⊢
        obtain ⟨g1, g2⟩ := descend_wf (go := makeWay w) hp.2.2.2 (new_wf hn.1.1 hn.2)
          (ih fun m hm => hg m (by simp [hm])) (makeWay_name w)
        refine ⟨hp.1, hp.2.1, ?_, g1⟩
        rcases g2 with g2 | ⟨g2, g3⟩
        · rw [g2]; exact hp.2.2.1
        · rw [g3, ← List.append_assoc]
          refine (List.Perm.nodup_iff (List.perm_append_singleton _ _)).2 (List.nodup_cons.2 ⟨?_, hp.2.2.1⟩)
          rw [List.mem_append]
          exact fun h => h.elim hes g2

theorem makeWay_areas (way : List String) : ∀ p, areasNamedPkg p = true → areasNamedPkg (makeWay way p).1 = true := by
  induction way with
  | nil => exact fun p h => h
  | cons n w ih =>
    intro p hp
    cases p with
    | mk h es ps =>
      rw [makeWay]
      split
      · exact hp
      · simp only [areasNamedPkg, Bool.and_eq_true] at hp ⊢
        exact ⟨hp.1, descend_areas hp.2 ih⟩

theorem make_good {ps : List Pkg} (hwf : WellFormedPkgs ps) (hd : (ps.map Pkg.name).Nodup) {way : List String}
    (hne : way ≠ []) (hg : ∀ n ∈ way, GoodName n ∧ plainText n = true) (t : String)
    (ht : t = absRef way ∨ t = relRef way) :
    WellFormedPkgs (make ps t).1 ∧ ((make ps t).1.map Pkg.name).Nodup ∧
      (areasNamedPkgs ps = true → areasNamedPkgs (make ps t).1 = true) := by
  rw [make_way hne (fun n hn => (hg n hn).1) _ _ ht]
  cases way with
  | nil => exact absurd rfl hne
  | cons n w =>
    have hn := hg n (by simp)
    obtain ⟨g1, g2⟩ := descend_wf (go := makeWay w) hwf (new_wf hn.1.1 hn.2)
      (makeWay_wf w fun m hm => hg m (by simp [hm])) (makeWay_name w)
    refine ⟨g1, ?_, fun h => descend_areas h (makeWay_areas w)⟩
    simp only
    rcases g2 with g2 | ⟨g2, g3⟩
    · rw [g2]; exact hd
    · rw [g3]
      exact (List.Perm.nodup_iff (List.perm_append_singleton _ _)).2 (List.nodup_cons.2 ⟨g2, hd⟩)

end Verif.Codec.Make
