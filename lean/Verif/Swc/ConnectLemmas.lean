import Verif.Swc.Connect
/-
Facts about connectors used by `Verif/Props/SwcConnect.lean`.
-/
namespace Verif.Swc
open Verif.Py Verif.Ref Verif.Swc.Spec

theorem join_two (sep : Char) (a b : String) (l : List String) :
    join sep (a :: b :: l) = a ++ String.ofList [sep] ++ join sep (b :: l) := by
  apply String.toList_injective
  simp [join, joinL]

theorem join_one (sep : Char) (a : String) : join sep [a] = a := by
  apply String.toList_injective
  simp [join, joinL]

/-- The place of an end. -/
def placeOf (c : Composition) : End → Place
  | .outer p => ⟨p, c.ref, none⟩
  | .inner e t p => ⟨p, t.ref, some e⟩

theorem splitL_one {l a : List Char} (h : splitL '/' l = [a]) : l = a ∧ '/' ∉ a := by
  have h1 := joinL_splitL '/' l
  have h2 := not_mem_splitL '/' l
  rw [h] at h1 h2
  exact ⟨by simpa [joinL] using h1.symm, h2 a (by simp)⟩

theorem splitL_two {l a b : List Char} (h : splitL '/' l = [a, b]) :
    l = a ++ '/' :: b ∧ '/' ∉ a ∧ '/' ∉ b := by
  have h1 := joinL_splitL '/' l
  have h2 := not_mem_splitL '/' l
  rw [h] at h1 h2
  exact ⟨by simpa [joinL] using h1.symm, h2 a (by simp), h2 b (by simp)⟩

/-- What a successful split says about the text. -/
theorem splitRef_text {v : PyVal} {ws : List (List Char)} (h : splitRef v = .ok (some ws)) :
    ∃ s l, v = .str s ∧ splitL '/' l = ws ∧ (s.toList = l ∨ s.toList = '/' :: l) := by
  cases v with
  | str s =>
    simp only [splitRef] at h
    refine ⟨s, ?_⟩
    cases hs : s.toList with
    | nil => rw [hs] at h; simp at h
    | cons c cs =>
      rw [hs] at h
      simp only at h
      by_cases hc : c = '/'
      · simp only [hc, if_true, Except.ok.injEq, Option.some.injEq] at h
        exact ⟨cs, rfl, h, .inr (by rw [hc])⟩
      · simp only [hc, if_false, Except.ok.injEq, Option.some.injEq] at h
        exact ⟨c :: cs, rfl, h, .inl rfl⟩
  | _ => simp [splitRef] at h

theorem splitRef_of {s : String} {l : List Char} (h : s.toList = l ∨ s.toList = '/' :: l) (hl : l ≠ [])
    (hf : l.head? ≠ some '/') : splitRef (.str s) = .ok (some (splitL '/' l)) := by
  simp only [splitRef]
  rcases h with h | h
  · rw [h]
    cases l with
    | nil => exact absurd rfl hl
    | cons c cs =>
      simp at hf
      simp [hf]
  · rw [h]; simp

theorem findIn_port {inner : List String} {ports : List Port} {n : List Char} {p : Port}
    (h : findIn inner ports n = some (.port p)) (hn : '/' ∉ n) : p ∈ ports ∧ p.name.toList = n := by
  unfold findIn at h
  rw [partL_no_sep '/' n hn] at h
  simp only at h
  split at h
  · simp at h
  · simp only [Option.map_eq_some_iff, Hit.port.injEq] at h
    obtain ⟨q, hq, rfl⟩ := h
    refine ⟨List.mem_of_find?_eq_some hq, ?_⟩
    have := List.find?_some hq
    simp only [decide_eq_true_eq] at this
    rw [this]; simp

theorem find_unique {α : Type} (f : α → String) {l : List α} {a : α} (h : (l.map f).Nodup) (ha : a ∈ l) :
    (l.find? fun x => f x = f a) = some a := by
  induction l with
  | nil => simp at ha
  | cons x xs ih =>
    simp only [List.map_cons, List.nodup_cons, List.mem_map, not_exists, not_and] at h
    rcases List.mem_cons.mp ha with rfl | ha'
    · simp
    · have : ¬ f x = f a := fun e => h.1 a ha' e.symm
      simp [this, ih h.2 ha']

theorem findIn_of {inner : List String} {ports : List Port} {p : Port} (hw : WellNamed inner ports)
    (hp : p ∈ ports) (hs : '/' ∉ p.name.toList) : findIn inner ports p.name.toList = some (.port p) := by
  unfold findIn
  rw [partL_no_sep '/' _ hs]
  simp only [String.ofList_toList]
  unfold WellNamed at hw
  rw [List.nodup_append] at hw
  have h1 : p.name ∉ inner := fun hi => hw.2.2 _ hi _ (List.mem_map.mpr ⟨p, hp, rfl⟩) rfl
  rw [if_neg h1, find_unique (·.name) hw.2.1 hp]
  rfl

theorem analyze_sound {env : Env} {c : Composition} {v : PyVal} {pl : Place}
    (h : analyze env c v = .ok (some pl)) :
    ∃ s e, v = .str s ∧ Names env c s e ∧ pl = placeOf c e := by
  unfold analyze at h
  split at h
  · simp at h
  · simp at h
  · rename_i pn hs
    obtain ⟨s, l, rfl, h1, h2⟩ := splitRef_text hs
    obtain ⟨rfl, h3⟩ := splitL_one h1
    split at h
    · rename_i p hf
      obtain ⟨hp, hn⟩ := findIn_port hf h3
      simp only [Except.ok.injEq, Option.some.injEq] at h
      refine ⟨s, .outer p, rfl, .outer s p hp ?_ (hn ▸ h3), h.symm⟩
      rw [hn]; exact h2
    · simp at h
  · rename_i cn pn hs
    obtain ⟨s, l, rfl, h1, h2⟩ := splitRef_text hs
    obtain ⟨rfl, h3, h4⟩ := splitL_two h1
    split at h
    · simp at h
    · rename_i elem he
      have hm := List.mem_of_find?_eq_some he
      have hen := List.find?_some he
      simp only [decide_eq_true_eq] at hen
      have hen' : elem.name.toList = cn := by rw [hen]; simp
      split at h
      · simp at h
      · simp at h
      · simp at h
      · rename_i t ht
        split at h
        · rename_i p hf
          obtain ⟨hp, hn⟩ := findIn_port hf h4
          simp only [Except.ok.injEq, Option.some.injEq] at h
          refine ⟨s, .inner elem t p, rfl, .inner s elem t p hm ht hp ?_ (hen' ▸ h3) (hn ▸ h4), h.symm⟩
          rw [hn, hen']; exact h2
        · simp at h
  · simp at h

theorem analyze_complete {env : Env} {c : Composition} {s : String} {e : End}
    (hc : WellNamed c.inner c.ports) (hn : Names env c s e)
    (ht : ∀ r t, env r = .ok (some (.swc t)) → WellNamed t.inner t.ports)
    (hne : ∀ x ∈ c.comps, x.name ≠ "") (hpe : ∀ x ∈ c.ports, x.name ≠ "") :
    analyze env c (.str s) = .ok (some (placeOf c e)) := by
  cases hn with
  | outer p hp hs hsl =>
    have hne' : p.name.toList ≠ [] := by simp [hpe p hp]
    have hh : p.name.toList.head? ≠ some '/' := by
      intro hh; exact hsl (List.mem_of_mem_head? (by rw [hh]; rfl))
    unfold analyze
    rw [splitRef_of hs hne' hh, splitL_no_sep '/' _ hsl]
    simp only
    unfold Composition.find
    rw [findIn_of hc hp hsl]
    rfl
  | inner elem t p he hte hp hs hsl1 hsl2 =>
    have hnel : elem.name.toList ≠ [] := by simp [hne elem he]
    have hh : (elem.name.toList ++ '/' :: p.name.toList).head? ≠ some '/' := by
      cases hl : elem.name.toList with
      | nil => exact absurd hl hnel
      | cons a as =>
        rw [hl] at hsl1
        simp only [List.cons_append, List.head?_cons, ne_eq, Option.some.injEq]
        rintro rfl; simp at hsl1
    unfold analyze
    rw [splitRef_of hs (by simp) hh, splitL_append '/' _ _ hsl1, splitL_no_sep '/' _ hsl2]
    simp only [String.ofList_toList]
    have hnd : (c.comps.map (·.name)).Nodup := by
      unfold WellNamed Composition.inner at hc
      rw [List.nodup_append, List.nodup_append] at hc
      exact hc.1.1
    rw [find_unique (·.name) hnd he]
    simp only [hte]
    rw [findIn_of (ht _ t hte) hp hsl2]
    rfl

theorem portRef_refTo (o : Option String) (p : Port) : portRef o p = refTo o p := by
  cases o <;> rfl

theorem instRef_instOf (c : Composition) (e : Proto) (t : CompType) (p : Port) :
    instRef c e p t.ref = instOf c e t p := by
  unfold instRef instOf
  rw [portRef_refTo]
  cases c.ref <;> rfl

theorem addConnector_ok {c c' : Composition} {k k' : Connector} (h : addConnector c k = (c', .ok k')) :
    k' = k ∧ c' = { c with conns := c.conns ++ [k] } ∧ c.find k.name.toList = none := by
  unfold addConnector at h
  split at h
  · simp at h
  · rename_i hf
    simp only [Prod.mk.injEq, Except.ok.injEq] at h
    exact ⟨h.2.symm, h.1.symm, by simpa using hf⟩

theorem addConnector_error {c c' : Composition} {k : Connector} {e : PyErr}
    (h : addConnector c k = (c', .error e)) : c' = c := by
  unfold addConnector at h
  split at h
  · simp only [Prod.mk.injEq] at h; exact h.1.symm
  · simp at h

/-- The connector two ends should get, if they can be joined at all. -/
def wanted (c : Composition) : End → End → Option Connector
  | .outer p, .outer q => some ⟨join '_' [p.name, q.name], .passThrough (refTo c.ref p) (refTo c.ref q), false⟩
  | .inner e t p, .outer q =>
    some ⟨if q.kind = .p then join '_' [e.name, p.name, q.name] else join '_' [q.name, e.name, p.name],
      .delegation (instOf c e t p) (refTo c.ref q), false⟩
  | .outer q, .inner e t p =>
    some ⟨if q.kind = .p then join '_' [e.name, p.name, q.name] else join '_' [q.name, e.name, p.name],
      .delegation (instOf c e t p) (refTo c.ref q), false⟩
  | .inner e1 t1 p1, .inner e2 t2 p2 =>
    match p1.kind, p2.kind with
    | .r, .p => some ⟨join '_' [e2.name, p2.name, e1.name, p1.name],
        .assembly (instOf c e2 t2 p2) (instOf c e1 t1 p1), true⟩
    | .p, .r => some ⟨join '_' [e1.name, p1.name, e2.name, p2.name],
        .assembly (instOf c e1 t1 p1) (instOf c e2 t2 p2), true⟩
    | _, _ => none

theorem joinPlaces_wanted (c : Composition) (e1 e2 : End) :
    joinPlaces c (some (placeOf c e1)) (some (placeOf c e2)) =
      match wanted c e1 e2 with
      | some k => addConnector c k
      | none => (c, .error .valueError) := by
  cases e1 with
  | outer p =>
    cases e2 with
    | outer q => simp [joinPlaces, placeOf, wanted, createPassThrough, portRef_refTo]
    | inner e t q =>
      simp only [joinPlaces, placeOf, wanted, createDelegation, portRef_refTo, instRef_instOf]
      rfl
  | inner e t p =>
    cases e2 with
    | outer q =>
      simp only [joinPlaces, placeOf, wanted, createDelegation, portRef_refTo, instRef_instOf]
      rfl
    | inner e' t' q =>
      obtain ⟨k1, n1⟩ := p
      obtain ⟨k2, n2⟩ := q
      cases k1 <;> cases k2 <;> simp [joinPlaces, placeOf, wanted, createAssembly, instRef_instOf]

theorem joinPlaces_none (c : Composition) (a b : Option Place) (h : a = none ∨ b = none) :
    joinPlaces c a b = (c, .error .attributeError) := by
  unfold joinPlaces
  rcases h with rfl | rfl
  · simp
  · cases a <;> simp

theorem join2 (a b : String) : join '_' [a, b] = a ++ "_" ++ b := by
  rw [join_two, join_one]

theorem join3 (a b d : String) : join '_' [a, b, d] = a ++ "_" ++ b ++ "_" ++ d := by
  rw [join_two, join2]; apply String.toList_injective; simp

theorem join4 (a b d f : String) : join '_' [a, b, d, f] = a ++ "_" ++ b ++ "_" ++ d ++ "_" ++ f := by
  rw [join_two, join3]; apply String.toList_injective; simp

theorem wanted_joins {c : Composition} {e1 e2 : End} {k : Connector} (h : wanted c e1 e2 = some k) :
    Joins c e1 e2 k.name k.joint := by
  cases e1 with
  | outer p =>
    cases e2 with
    | outer q =>
      simp only [wanted, Option.some.injEq] at h; subst h
      simp only [join2]; exact .passThrough p q
    | inner e t q =>
      simp only [wanted, Option.some.injEq] at h; subst h
      simp only [join3]; exact .delegation' e t q p
  | inner e t p =>
    cases e2 with
    | outer q =>
      simp only [wanted, Option.some.injEq] at h; subst h
      simp only [join3]; exact .delegation e t p q
    | inner e' t' q =>
      simp only [wanted] at h
      split at h
      · rename_i h1 h2
        simp only [Option.some.injEq] at h; subst h
        simp only [join4]; exact .assembly' e t p e' t' q h1 h2
      · rename_i h1 h2
        simp only [Option.some.injEq] at h; subst h
        simp only [join4]; exact .assembly e t p e' t' q h1 h2
      · simp at h

theorem joins_wanted {c : Composition} {e1 e2 : End} {n : String} {j : Joint} (h : Joins c e1 e2 n j) :
    ∃ b, wanted c e1 e2 = some ⟨n, j, b⟩ := by
  cases h with
  | assembly e1 t1 p1 e2 t2 p2 h1 h2 => exact ⟨true, by simp only [wanted, h1, h2, join4]⟩
  | assembly' e1 t1 p1 e2 t2 p2 h1 h2 => exact ⟨true, by simp only [wanted, h1, h2, join4]⟩
  | delegation e t p q => exact ⟨false, by simp only [wanted, join3]⟩
  | delegation' e t p q => exact ⟨false, by simp only [wanted, join3]⟩
  | passThrough p q => exact ⟨false, by simp only [wanted, join2]⟩

theorem createConnector_ok {env : Env} {c c' : Composition} {v1 v2 : PyVal} {k : Connector}
    (h : createConnector env c v1 v2 = (c', .ok k)) :
    ∃ s1 s2 e1 e2, v1 = .str s1 ∧ v2 = .str s2 ∧ Names env c s1 e1 ∧ Names env c s2 e2 ∧
      wanted c e1 e2 = some k ∧ c' = { c with conns := c.conns ++ [k] } ∧ c.find k.name.toList = none := by
  unfold createConnector at h
  split at h
  · simp at h
  · rename_i a ha
    split at h
    · simp at h
    · rename_i b hb
      cases a with
      | none => rw [joinPlaces_none c none b (.inl rfl)] at h; simp at h
      | some x =>
        cases b with
        | none => rw [joinPlaces_none c (some x) none (.inr rfl)] at h; simp at h
        | some y =>
          obtain ⟨s1, e1, rfl, hn1, rfl⟩ := analyze_sound ha
          obtain ⟨s2, e2, rfl, hn2, rfl⟩ := analyze_sound hb
          rw [joinPlaces_wanted] at h
          split at h
          · rename_i k' hk
            obtain ⟨rfl, h2, h3⟩ := addConnector_ok h
            exact ⟨s1, s2, e1, e2, rfl, rfl, hn1, hn2, hk, h2, h3⟩
          · simp at h

theorem createConnector_error {env : Env} {c c' : Composition} {v1 v2 : PyVal} {e : PyErr}
    (h : createConnector env c v1 v2 = (c', .error e)) : c' = c := by
  unfold createConnector at h
  split at h
  · simp only [Prod.mk.injEq] at h; exact h.1.symm
  · rename_i a ha
    split at h
    · simp only [Prod.mk.injEq] at h; exact h.1.symm
    · rename_i b hb
      cases a with
      | none =>
        rw [joinPlaces_none c none b (.inl rfl)] at h
        simp only [Prod.mk.injEq] at h; exact h.1.symm
      | some x =>
        cases b with
        | none =>
          rw [joinPlaces_none c (some x) none (.inr rfl)] at h
          simp only [Prod.mk.injEq] at h; exact h.1.symm
        | some y =>
          obtain ⟨s1, e1, rfl, hn1, rfl⟩ := analyze_sound ha
          obtain ⟨s2, e2, rfl, hn2, rfl⟩ := analyze_sound hb
          rw [joinPlaces_wanted] at h
          split at h
          · exact addConnector_error h
          · simp only [Prod.mk.injEq] at h; exact h.1.symm

end Verif.Swc
