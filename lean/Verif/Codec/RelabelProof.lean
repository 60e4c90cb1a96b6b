import Verif.Codec.RelabelSpec
import Verif.Codec.RenameProof
/-
Constructors of runnables change nothing but names of access points, by "_0" behind them.
-/
namespace Verif.Codec.Relabel
open Verif.Py Verif.Names Verif.Codec Verif.Codec.Spec Verif.Codec.Rename Verif.Codec.RenameSpec
  Verif.Codec.RelabelSpec

theorem dec_zero : '_' :: Verif.Num.decStr 0 = "_0".toList := by decide +kernel

/-- A name to which the theorems apply. -/
def Ok (x : Val Cls) : Prop := nameIn x ≠ [] ∧ Plain (nameIn x)

theorem plain_zero {n : Name} (h : Plain n) : Plain (indexed n 0) := by
  intro c hc
  simp only [indexed, List.mem_append] at hc
  rcases hc with hc | hc
  · exact h c hc
  · rw [dec_zero] at hc
    have : c ∈ ['_', '0'] := hc
    revert this
    revert c
    decide +kernel

theorem zero_ne (n : Name) : indexed n 0 ≠ n := by
  intro h
  have := congrArg List.length h
  simp [indexed] at this

theorem split_name : ∀ fs : List (String × Val Cls), ∀ s, dictGet fs "name" = some (.str s) →
    ∃ p q, fs = p ++ ("name", .str s) :: q ∧ ∀ kv ∈ p, kv.1 ≠ "name"
  | [], _, h => by cases h
  | (k, v) :: rest, s, h => by
    simp only [dictGet] at h
    split at h
    · rename_i hk
      injection h with h
      subst hk h
      exact ⟨[], rest, rfl, by simp⟩
    · rename_i hk
      obtain ⟨p, q, rfl, h2⟩ := split_name rest s h
      exact ⟨(k, v) :: p, q, rfl, by simpa [hk] using h2⟩

theorem set_split (n : Name) (s : String) : ∀ p q : List (String × Val Cls),
    (∀ kv ∈ p, kv.1 ≠ "name") →
    setNameIn n (p ++ ("name", .str s) :: q) = p ++ ("name", .str (String.ofList n)) :: q
  | [], q, _ => by simp [setNameIn]
  | (k, v) :: p, q, h => by
    have hk : k ≠ "name" := h (k, v) (by simp)
    simp only [List.cons_append, setNameIn, if_neg hk,
      set_split n s p q (fun kv hm => h kv (by simp [hm]))]

theorem get_split (s : String) : ∀ p q : List (String × Val Cls), (∀ kv ∈ p, kv.1 ≠ "name") →
    dictGet (p ++ ("name", .str s) :: q) "name" = some (.str s)
  | [], q, _ => by simp [dictGet]
  | (k, v) :: p, q, h => by
    have hk : k ≠ "name" := h (k, v) (by simp)
    simp only [List.cons_append, dictGet, if_neg hk,
      get_split s p q (fun kv hm => h kv (by simp [hm]))]

theorem name_split {x : Val Cls} (h : nameIn x ≠ []) : ∃ c p q s,
    x = .obj c (p ++ ("name", .str s) :: q) ∧ (∀ kv ∈ p, kv.1 ≠ "name") ∧ nameIn x = s.toList := by
  cases x with
  | obj c fs =>
    simp only [nameIn] at h ⊢
    split at h
    · rename_i s hs
      obtain ⟨p, q, rfl, h2⟩ := split_name fs s hs
      exact ⟨c, p, q, s, rfl, h2, rfl⟩
    · exact absurd rfl h
  | _ => exact absurd rfl h

theorem name_set {x : Val Cls} (h : nameIn x ≠ []) (n : Name) : nameIn (setName x n) = n := by
  obtain ⟨c, p, q, s, rfl, h2, -⟩ := name_split h
  simp only [setName, set_split n s p q h2, nameIn, get_split _ p q h2, String.toList_ofList]

theorem ofList_zero (s : String) : String.ofList (indexed s.toList 0) = s ++ "_0" := by
  apply String.toList_inj.1
  rw [String.toList_ofList, String.toList_append, indexed, dec_zero]

theorem relabel_step {x y : Val Cls} (h : Relabelled x y) (hn : nameIn y ≠ []) :
    Relabelled x (setName y (indexed (nameIn y) 0)) := by
  cases h with
  | same =>
    obtain ⟨c, p, q, s, rfl, h2, h3⟩ := name_split hn
    rw [h3]
    simp only [setName, set_split _ s p q h2, ofList_zero]
    exact .name h2 (.more .same)
  | @name c p q s t h2 hs =>
    simp only [nameIn, get_split _ p q h2, setName, set_split _ t p q h2, ofList_zero]
    exact .name h2 (.more hs)

/-- Two lists, one by one. -/
inductive PW : List (Val Cls) → List (Val Cls) → Prop
  | nil : PW [] []
  | cons {x y : Val Cls} {xs ys : List (Val Cls)} : Relabelled x y → PW xs ys → PW (x :: xs) (y :: ys)

theorem PW.append {xs ys : List (Val Cls)} (h : PW xs ys) (x : Val Cls) : PW (xs ++ [x]) (ys ++ [x]) := by
  induction h with
  | nil => exact .cons (.same x) .nil
  | cons h1 _ ih => exact .cons h1 ih

theorem pw_step : ∀ (P S os : List (Val Cls)) (z : Val Cls), PW os (P ++ z :: S) → nameIn z ≠ [] →
    PW os (P ++ setName z (indexed (nameIn z) 0) :: S)
  | [], S, os, z, h, hn => by
    cases h with
    | cons h1 h2 => exact .cons (relabel_step h1 hn) h2
  | p :: P, S, os, z, h, hn => by
    cases h with
    | cons h1 h2 => exact .cons h1 (pw_step P S _ z h2 hn)

theorem addNamed_spec (D : Digits) {os acc : List (Val Cls)} {x : Val Cls} (hr : PW os acc)
    (ha : ∀ y ∈ acc, Ok y) (hx : Ok x) :
    ∃ acc', addNamed D acc x = some (acc' ++ [x]) ∧ PW os acc' ∧ (∀ y ∈ acc', Ok y) ∧
      ∀ p z, acc' = p ++ [z] → nameIn z ≠ nameIn x := by
  have hnew : nameIn x ∉ acc.map nameIn → ∀ p z, acc = p ++ [z] → nameIn z ≠ nameIn x := by
    intro hn p z hz he
    exact hn (by rw [hz, ← he]; simp)
  obtain ⟨h, -, hc⟩ := makeUnique_cases D (acc.map nameIn) (nameIn x) hx.2
  rcases hc with ⟨hn, -, hr'⟩ | ⟨hn, hr'⟩ | ⟨p, s, he, hs, hr'⟩
  · exact ⟨acc, by simp only [addNamed, hr', zip_self], hr, ha, hnew hn⟩
  · exact ⟨acc, by simp only [addNamed, hr', zip_self], hr, ha, hnew hn⟩
  · obtain ⟨P, l, rfl, hP, hl⟩ := List.map_eq_append_iff.1 he
    obtain ⟨z, S, rfl, hz, hS⟩ := List.map_eq_cons_iff.1 hl
    have hzo : Ok z := ha z (by simp)
    have hzip : List.zipWith setName (P ++ z :: S) (p ++ indexed (nameIn x) 0 :: s) =
        P ++ setName z (indexed (nameIn z) 0) :: S := by
      rw [List.zipWith_append (by simp [← hP]), List.zipWith_cons_cons, ← hP, ← hS, zip_self, zip_self, hz]
    refine ⟨_, by simp only [addNamed, hr', hzip], pw_step P S os z hr hzo.1, ?_, ?_⟩
    · intro y hy
      simp only [List.mem_append, List.mem_cons] at hy
      rcases hy with hy | rfl | hy
      · exact ha y (by simp [hy])
      · refine ⟨?_, ?_⟩
        · rw [name_set hzo.1]; simp [indexed]
        · rw [name_set hzo.1]; exact plain_zero hzo.2
      · exact ha y (by simp [hy])
    · intro p' w hw
      rcases List.eq_nil_or_concat S with rfl | ⟨S', w', rfl⟩
      · have : w = setName z (indexed (nameIn z) 0) := by
          have := congrArg List.getLast? hw
          simpa using this.symm
        rw [this, name_set hzo.1, hz]
        exact zero_ne _
      · have : w = w' := by
          have hw' : (P ++ setName z (indexed (nameIn z) 0) :: S') ++ [w'] = p' ++ [w] := by
            simpa using hw
          have := (List.append_inj' hw' rfl).2
          injection this with this
          exact this.symm
        subst this
        intro hh
        exact hs (by rw [← hS, ← hh]; simp)

theorem addAll_spec (D : Digits) : ∀ (xs os acc : List (Val Cls)), PW os acc → (∀ y ∈ acc, Ok y) →
    (∀ y ∈ xs, Ok y) → xs ≠ [] → ∃ us x, addAll D acc xs = some (us ++ [x]) ∧ xs.getLast? = some x ∧
      PW (os ++ xs) (us ++ [x]) ∧ ∀ p z, us = p ++ [z] → nameIn z ≠ nameIn x
  | [], _, _, _, _, _, h => absurd rfl h
  | x :: xs, os, acc, hr, ha, hx, _ => by
    obtain ⟨acc', h1, h2, h3, h4⟩ := addNamed_spec D hr ha (hx x (by simp))
    simp only [addAll, h1]
    by_cases hxs : xs = []
    · subst hxs
      exact ⟨acc', x, rfl, by simp, h2.append x, h4⟩
    · obtain ⟨us, y, e1, e2, e3, e4⟩ := addAll_spec D xs (os ++ [x]) (acc' ++ [x]) (h2.append x)
        (by
          intro y hy
          simp only [List.mem_append, List.mem_singleton] at hy
          rcases hy with hy | rfl
          · exact h3 y hy
          · exact hx _ (by simp))
        (fun y hy => hx y (by simp [hy])) hxs
      refine ⟨us, y, e1, ?_, by simpa using e3, e4⟩
      rw [List.getLast?_cons, e2]
      rfl

theorem relabelledAll_of : ∀ (xs ys : List (Val Cls)), PW xs ys → xs.getLast? = ys.getLast? →
    RelabelledAll xs ys
  | [], _, h, _ => by cases h; exact .nil
  | [x], ys, h, hl => by
    cases h with
    | cons h1 h2 =>
      cases h2
      simp at hl
      subst hl
      exact .last x
  | x :: x' :: xs, ys, h, hl => by
    cases h with
    | cons h1 h2 =>
      have h3 := h2
      cases h2 with
      | cons h4 h5 =>
        refine .more h1 (relabelledAll_of _ _ h3 ?_)
        simpa using hl

theorem pw_last {xs ys : List (Val Cls)} {P : Val Cls → Prop} (h : PW xs ys)
    (hp : ∀ x y, Relabelled x y → P x → P y) (hx : ∀ x ∈ xs, P x) : ∀ y ∈ ys, P y := by
  induction h with
  | nil => simp
  | cons h1 _ ih =>
    intro y hy
    simp only [List.mem_cons] at hy
    rcases hy with rfl | hy
    · exact hp _ _ h1 (hx _ (by simp))
    · exact ih (fun x hm => hx x (by simp [hm])) y hy

theorem lastTwo_relabel (x y : Val Cls) (h : Relabelled x y) (hx : LastTwo x) : LastTwo y := by
  cases h with
  | same => exact hx
  | @name c p q s t h2 hs =>
    have hm' : ∀ k (w : Val Cls), (∀ u, w ≠ .str u) → (k, w) ∈ p ++ ("name", .str t) :: q →
        (k, w) ∈ p ++ ("name", .str s) :: q := by
      intro k w hw hm
      simp only [List.mem_append, List.mem_cons, Prod.mk.injEq] at hm ⊢
      rcases hm with hm | ⟨-, hm⟩ | hm
      · exact .inl hm
      · exact absurd hm (hw t)
      · exact .inr (.inr hm)
    intro fs hi k hk vs a b hm
    cases hi with
    | here => exact hx _ .here k hk vs a b (hm' _ _ (by simp) hm)
    | @obj k' w _ _ h3 h4 =>
      have : ∀ u, w ≠ .str u := by rintro u rfl; cases h4
      exact hx fs (.obj (hm' _ _ this h3) h4) k hk vs a b hm

theorem lastTwo_list {vs : List (Val Cls)} (h : ∀ v ∈ vs, LastTwo v) : LastTwo (.list vs) := by
  intro fs hi
  cases hi with
  | list hm hi => exact h _ hm fs hi

/-- Attributes before and after, one by one. -/
inductive FR : List (String × Val Cls) → List (String × Val Cls) → Prop
  | nil : FR [] []
  | list {k : String} {vs ws : List (Val Cls)} {fs gs : List (String × Val Cls)} :
      RenamedAll vs ws → ws.map nameIn = vs.map nameIn → FR fs gs →
      FR ((k, .list vs) :: fs) ((k, .list ws) :: gs)
  | other {k : String} {v w : Val Cls} {fs gs : List (String × Val Cls)} : Renamed v w →
      (∀ ws, w ≠ .list ws) → (∀ s, v = .str s ↔ w = .str s) → FR fs gs →
      FR ((k, v) :: fs) ((k, w) :: gs)

theorem fr_renamed {c : Cls} {fs gs : List (String × Val Cls)} (h : FR fs gs) :
    RenamedFields c fs gs := by
  induction h with
  | nil => exact .nil
  | list h1 _ _ ih => exact .cons (.list h1) ih
  | other h1 _ _ _ ih => exact .cons h1 ih

theorem str_match {v w : Val Cls} (h : ∀ s, v = .str s ↔ w = .str s) (c c' : Cls)
    (fs gs : List (String × Val Cls)) :
    nameIn (.obj c (("name", w) :: gs)) = nameIn (.obj c' (("name", v) :: fs)) := by
  simp only [nameIn, dictGet, if_true]
  cases v with
  | str s => rw [(h s).1 rfl]
  | _ =>
    cases w with
    | str s => exact absurd ((h s).2 rfl) (by simp)
    | _ => rfl

theorem fr_name {fs gs : List (String × Val Cls)} (c : Cls) (h : FR fs gs) :
    nameIn (.obj c gs) = nameIn (.obj c fs) := by
  induction h with
  | nil => rfl
  | @list k vs ws fs gs h1 h2 h3 ih =>
    by_cases hk : k = "name"
    · subst hk; rfl
    · simpa only [nameIn, dictGet, if_neg hk] using ih
  | @other k v w fs gs h1 h2 h3 h4 ih =>
    by_cases hk : k = "name"
    · subst hk; exact str_match h3 c c fs gs
    · simpa only [nameIn, dictGet, if_neg hk] using ih

theorem ok_names {vs ws : List (Val Cls)} (h : ws.map nameIn = vs.map nameIn) (hv : ∀ x ∈ vs, Ok x) :
    ∀ x ∈ ws, Ok x := by
  intro x hx
  have : nameIn x ∈ vs.map nameIn := h ▸ List.mem_map_of_mem hx
  obtain ⟨y, hy, he⟩ := List.mem_map.1 this
  have := hv y hy
  rw [Ok, he] at this
  exact this

theorem name_not_renamed : "name" ∉ renamed := by decide

theorem renameFields_spec (D : Digits) {fs gs : List (String × Val Cls)} (h : FR fs gs) :
    (∀ k ∈ accessLists, ∀ vs, (k, .list vs) ∈ fs → ∀ x ∈ vs, Ok x) →
    (∀ kv ∈ gs, LastTwo kv.2) →
    ∃ hs, renameFields D gs = some hs ∧ RenamedFields .RunnableEntity fs hs ∧
      (∀ kv ∈ hs, LastTwo kv.2) ∧
      (∀ k ∈ accessLists, ∀ vs x y, (k, .list (vs ++ [x, y])) ∈ hs → nameIn x ≠ nameIn y) ∧
      nameIn (.obj .RunnableEntity hs) = nameIn (.obj .RunnableEntity fs) := by
  induction h with
  | nil => exact fun _ _ => ⟨[], rfl, .nil, by simp, by simp, rfl⟩
  | @list k vs ws fs gs h1 h2 h3 ih =>
    intro ho hl
    obtain ⟨hs, i1, i2, i3, i4, i5⟩ := ih (fun k hk vs hm => ho k hk vs (by simp [hm]))
      (fun kv hm => hl kv (by simp [hm]))
    have hn : ∀ us us' : List (Val Cls), nameIn (.obj .RunnableEntity ((k, .list us) :: hs)) =
        nameIn (.obj .RunnableEntity ((k, .list us') :: fs)) := by
      intro us us'
      by_cases hk : k = "name"
      · subst hk; rfl
      · simpa only [nameIn, dictGet, if_neg hk] using i5
    by_cases hk : k ∈ renamed
    · have hok := ok_names h2 (ho k hk vs (by simp))
      by_cases hw : ws = []
      · subst hw
        refine ⟨(k, .list []) :: hs, by simp only [renameFields, if_pos hk, addAll, i1, Option.map_some],
          .access hk h1 .nil i2, ?_, ?_, hn _ _⟩
        · intro kv hm
          simp only [List.mem_cons] at hm
          rcases hm with rfl | hm
          · exact lastTwo_list (by simp)
          · exact i3 kv hm
        · intro k' hk' us x y hm
          simp only [List.mem_cons, Prod.mk.injEq, Val.list.injEq] at hm
          rcases hm with ⟨-, hm⟩ | hm
          · simp at hm
          · exact i4 k' hk' us x y hm
      · obtain ⟨us, x, e1, e2, e3, e4⟩ := addAll_spec D ws [] [] .nil (by simp) hok hw
        rw [List.nil_append] at e3
        refine ⟨(k, .list (us ++ [x])) :: hs,
          by simp only [renameFields, if_pos hk, e1, i1, Option.map_some],
          .access hk h1 (relabelledAll_of _ _ e3 (by rw [e2]; simp)) i2, ?_, ?_, hn _ _⟩
        · intro kv hm
          simp only [List.mem_cons] at hm
          rcases hm with rfl | hm
          · refine lastTwo_list (pw_last e3 lastTwo_relabel ?_)
            intro w hw' fs' hi
            exact hl (k, .list ws) (by simp) fs' (.list hw' hi)
          · exact i3 kv hm
        · intro k' hk' us' a b hm
          simp only [List.mem_cons, Prod.mk.injEq, Val.list.injEq] at hm
          rcases hm with ⟨-, hm⟩ | hm
          · have hm2 : (us' ++ [a]) ++ [b] = us ++ [x] := by simpa using hm
            obtain ⟨h6, h7⟩ := List.append_inj' hm2 rfl
            injection h7 with h7
            subst h7
            exact e4 us' a h6.symm
          · exact i4 k' hk' us' a b hm
    · refine ⟨(k, .list ws) :: hs, by simp only [renameFields, if_neg hk, i1], .cons (.list h1) i2,
        ?_, ?_, hn _ _⟩
      · intro kv hm
        simp only [List.mem_cons] at hm
        rcases hm with rfl | hm
        · exact hl _ (by simp)
        · exact i3 kv hm
      · intro k' hk' us x y hm
        simp only [List.mem_cons, Prod.mk.injEq] at hm
        rcases hm with ⟨rfl, -⟩ | hm
        · exact absurd hk' hk
        · exact i4 k' hk' us x y hm
  | @other k v w fs gs h1 h2 h3 h4 ih =>
    intro ho hl
    obtain ⟨hs, i1, i2, i3, i4, i5⟩ := ih (fun k hk vs hm => ho k hk vs (by simp [hm]))
      (fun kv hm => hl kv (by simp [hm]))
    refine ⟨(k, w) :: hs, ?_, .cons h1 i2, ?_, ?_, ?_⟩
    · by_cases hk : k ∈ renamed
      · cases w with
        | list ws => exact absurd rfl (h2 ws)
        | _ => simp only [renameFields, if_pos hk, i1]
      · simp only [renameFields, if_neg hk, i1]
    · intro kv hm
      simp only [List.mem_cons] at hm
      rcases hm with rfl | hm
      · exact hl _ (by simp)
      · exact i3 kv hm
    · intro k' hk' us x y hm
      simp only [List.mem_cons, Prod.mk.injEq] at hm
      rcases hm with ⟨-, hm⟩ | hm
      · exact absurd hm.symm (h2 _)
      · exact i4 k' hk' us x y hm
    · by_cases hk : k = "name"
      · subst hk; exact str_match h3 _ _ fs hs
      · simpa only [nameIn, dictGet, if_neg hk] using i5

theorem plain_list {vs : List (Val Cls)} (h : PlainNames (.list vs)) : ∀ v ∈ vs, PlainNames v :=
  fun _ hv fs hi => h fs (.list hv hi)

theorem plain_obj {c : Cls} {fs : List (String × Val Cls)} (h : PlainNames (.obj c fs)) :
    ∀ kv ∈ fs, PlainNames kv.2 :=
  fun _ hv fs hi => h fs (.obj hv hi)

theorem lastTwo_other {v : Val Cls} (h1 : ∀ vs, v ≠ .list vs) (h2 : ∀ c fs, v ≠ .obj c fs) :
    LastTwo v := by
  intro fs hi
  cases hi with
  | here => exact absurd rfl (h2 _ _)
  | list => exact absurd rfl (h1 _)
  | obj => exact absurd rfl (h2 _ _)

/-- What `settle` does to an object. -/
def Good (v v' : Val Cls) : Prop :=
  Renamed v v' ∧ LastTwo v' ∧ nameIn v' = nameIn v ∧ (∀ s, v = .str s ↔ v' = .str s)

theorem good_other {v : Val Cls} (h1 : ∀ vs, v ≠ .list vs) (h2 : ∀ c fs, v ≠ .obj c fs) : Good v v :=
  ⟨.same v, lastTwo_other h1 h2, rfl, fun _ => Iff.rfl⟩

mutual
theorem settle_spec (D : Digits) : ∀ v : Val Cls, PlainNames v → ∃ v', settle D v = some v' ∧ Good v v' ∧
    (∀ ws, v' = .list ws → ∃ vs, v = .list vs ∧ RenamedAll vs ws ∧ ws.map nameIn = vs.map nameIn)
  | .list vs, h => by
    obtain ⟨ws, h1, h2, h3, h4⟩ := settleList_spec D vs (plain_list h)
    refine ⟨.list ws, by rw [settle, h1]; rfl, ⟨.list h2, lastTwo_list h3, rfl, by simp⟩, ?_⟩
    rintro us ⟨⟩
    exact ⟨vs, rfl, h2, h4⟩
  | .obj c fs, h => by
    obtain ⟨gs, h1, h2, h3⟩ := settleFields_spec D fs (plain_obj h)
    by_cases hc : c = .RunnableEntity
    · subst hc
      obtain ⟨hs, i1, i2, i3, i4, i5⟩ := renameFields_spec D h2 (h fs .here) h3
      refine ⟨.obj .RunnableEntity hs, ?_, ⟨.obj i2, ?_, i5, by simp⟩, by simp⟩
      · rw [settle, h1]
        simp only [if_true, i1, Option.map_some]
      · intro fs' hi
        cases hi with
        | here => exact i4
        | obj hm hi => exact i3 _ hm fs' hi
    · refine ⟨.obj c gs, ?_, ⟨.obj (fr_renamed h2), ?_, fr_name c h2, by simp⟩, by simp⟩
      · rw [settle, h1]
        simp only [if_neg hc, Option.map_some]
      · intro fs' hi
        cases hi with
        | here => exact absurd rfl hc
        | obj hm hi => exact h3 _ hm fs' hi
  | .str s, _ => ⟨_, rfl, good_other (by simp) (by simp), by simp⟩
  | .bool _, _ => ⟨_, rfl, good_other (by simp) (by simp), by simp⟩
  | .num _, _ => ⟨_, rfl, good_other (by simp) (by simp), by simp⟩
  | .numval _, _ => ⟨_, rfl, good_other (by simp) (by simp), by simp⟩
  | .enum _, _ => ⟨_, rfl, good_other (by simp) (by simp), by simp⟩
  | .limit _ _, _ => ⟨_, rfl, good_other (by simp) (by simp), by simp⟩
  | .ref _, _ => ⟨_, rfl, good_other (by simp) (by simp), by simp⟩
theorem settleList_spec (D : Digits) : ∀ vs : List (Val Cls), (∀ v ∈ vs, PlainNames v) →
    ∃ ws, settleList D vs = some ws ∧ RenamedAll vs ws ∧ (∀ w ∈ ws, LastTwo w) ∧
      ws.map nameIn = vs.map nameIn
  | [], _ => ⟨[], rfl, .nil, by simp, rfl⟩
  | v :: vs, h => by
    obtain ⟨w, h1, ⟨h2, h3, h4, -⟩, -⟩ := settle_spec D v (h v (by simp))
    obtain ⟨ws, i1, i2, i3, i4⟩ := settleList_spec D vs (fun w hw => h w (by simp [hw]))
    refine ⟨w :: ws, by rw [settleList, h1, i1], .cons h2 i2, ?_, by simp [h4, i4]⟩
    intro u hu
    simp only [List.mem_cons] at hu
    rcases hu with rfl | hu
    · exact h3
    · exact i3 u hu
theorem settleFields_spec (D : Digits) : ∀ fs : List (String × Val Cls), (∀ kv ∈ fs, PlainNames kv.2) →
    ∃ gs, settleFields D fs = some gs ∧ FR fs gs ∧ ∀ kv ∈ gs, LastTwo kv.2
  | [], _ => ⟨[], rfl, .nil, by simp⟩
  | (k, v) :: rest, h => by
    obtain ⟨w, h1, ⟨h2, h3, -, h5⟩, h6⟩ := settle_spec D v (h (k, v) (by simp))
    obtain ⟨gs, i1, i2, i3⟩ := settleFields_spec D rest (fun w hw => h w (by simp [hw]))
    refine ⟨(k, w) :: gs, by rw [settleFields, h1, i1], ?_, ?_⟩
    · by_cases hl : ∃ ws, w = .list ws
      · obtain ⟨ws, rfl⟩ := hl
        obtain ⟨vs, rfl, r1, r2⟩ := h6 ws rfl
        exact .list r1 r2 i2
      · exact .other h2 (fun ws he => hl ⟨ws, he⟩) h5 i2
    · intro kv hm
      simp only [List.mem_cons] at hm
      rcases hm with rfl | hm
      · exact h3
      · exact i3 kv hm
end

theorem plain_norm {v : Val Cls} (b : Bool) (h : PlainNames v) : PlainNames (normVal tables b v) := by
  intro fs' hi k hk vs hm
  obtain ⟨fs, h1, rfl⟩ := norm_inside b v hi
  obtain ⟨us, b', h2, h3⟩ := normFields_list fs hm
  have h5 := h fs h1 k hk us h2
  have h6 := h3.map nameIn
  rw [normList_names] at h6
  intro x hx
  obtain ⟨u, hu, he⟩ := List.mem_map.1 (h6.subset (List.mem_map_of_mem hx))
  rw [← he]
  exact h5 u hu

mutual
theorem settlePkg_spec (D : Digits) : ∀ p : Pkg, EachElement PlainNames p →
    ∃ q, settlePkg D (normPkg p) = some q ∧ RenamedPkg (normPkg p) q ∧ EachElement LastTwo q
  | .mk head es ps, h => by
    rw [EachElement] at h
    obtain ⟨ws, h1, h2, h3, -⟩ := settleList_spec D (es.map (normVal tables false)) (by
      intro v hv
      obtain ⟨u, hu, rfl⟩ := List.mem_map.1 hv
      exact plain_norm false (h.1 u hu))
    obtain ⟨qs, i1, i2, i3⟩ := settlePkgs_spec D ps h.2
    refine ⟨.mk _ ws qs, by rw [normPkg, settlePkg, h1, i1], by rw [normPkg]; exact .mk h2 i2, ?_⟩
    rw [EachElement]
    exact ⟨h3, i3⟩
theorem settlePkgs_spec (D : Digits) : ∀ ps : List Pkg, EachElements PlainNames ps →
    ∃ qs, settlePkgs D (normPkgs ps) = some qs ∧ RenamedPkgs (normPkgs ps) qs ∧ EachElements LastTwo qs
  | [], _ => ⟨[], rfl, .nil, trivial⟩
  | p :: ps, h => by
    rw [EachElements] at h
    obtain ⟨q, h1, h2, h3⟩ := settlePkg_spec D p h.1
    obtain ⟨qs, i1, i2, i3⟩ := settlePkgs_spec D ps h.2
    refine ⟨q :: qs, by rw [normPkgs, settlePkgs, h1, i1], by rw [normPkgs]; exact .cons h2 i2, ?_⟩
    rw [EachElements]
    exact ⟨h3, i3⟩
end

end Verif.Codec.Relabel
