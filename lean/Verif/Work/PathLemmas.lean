import Verif.Work.Path
import Verif.Pkg.Path
/- Helper lemmas for C28. -/
set_option linter.unusedSimpArgs false
set_option linter.unusedVariables false
namespace Verif.Work
open Verif.Py Verif.Work.Spec Verif.Pkg.Spec

/-- A component that survives normalisation. -/
def NameSeg (c : List Char) : Prop := c ≠ [] ∧ c ≠ ['.'] ∧ c ≠ ['.', '.'] ∧ '/' ∉ c

def loc (stack : List (List Char)) : List String := (stack.reverse).map String.ofList

theorem loc_cons (c : List Char) (stack : List (List Char)) :
    loc (c :: stack) = loc stack ++ [String.ofList c] := by simp [loc]

theorem loc_tail (stack : List (List Char)) : loc stack.tail = (loc stack).dropLast := by
  cases stack with
  | nil => rfl
  | cons c s => simp [loc]

theorem walk_foldl {n : Nat} (hn : n ≠ 0) (segs : List (List Char)) :
    ∀ stack, (∀ c ∈ stack, NameSeg c) → (∀ s ∈ segs, '/' ∉ s) →
      Walk (loc stack) segs (loc (segs.foldl (normStep n) stack)) ∧
      ∀ c ∈ segs.foldl (normStep n) stack, NameSeg c := by
  induction segs with
  | nil => intro stack h _; exact ⟨.done _, h⟩
  | cons s ss ih =>
    intro stack h hs
    have hss : ∀ x ∈ ss, '/' ∉ x := fun x hx => hs x (by simp [hx])
    rw [List.foldl_cons]
    by_cases h1 : s = [] ∨ s = ['.']
    · have : normStep n stack s = stack := by simp [normStep, h1]
      rw [this]
      obtain ⟨a, b⟩ := ih stack h hss
      refine ⟨.stay _ _ _ _ ?_ a, b⟩
      rcases h1 with rfl | rfl
      · exact .empty
      · exact .dot
    · by_cases h2 : s = ['.', '.']
      · subst h2
        have hd : stack.head? ≠ some ['.', '.'] := by
          cases stack with
          | nil => simp
          | cons c st =>
            intro e
            simp only [List.head?_cons, Option.some.injEq] at e
            exact (h c (by simp)).2.2.1 e
        have : normStep n stack ['.', '.'] = stack.tail := by
          simp [normStep, hn, hd]
        rw [this]
        obtain ⟨a, b⟩ := ih stack.tail (fun c hc => h c (List.mem_of_mem_tail hc)) hss
        rw [loc_tail] at a
        exact ⟨.up _ _ _ _ .dotdot a, b⟩
      · have : normStep n stack s = s :: stack := by simp [normStep, h1, h2]
        rw [this]
        have hseg : NameSeg s := ⟨fun e => h1 (.inl e), fun e => h1 (.inr e), h2, hs s (by simp)⟩
        obtain ⟨a, b⟩ := ih (s :: stack) (by
          intro c hc
          rcases List.mem_cons.mp hc with rfl | hc
          · exact hseg
          · exact h c hc) hss
        rw [loc_cons] at a
        exact ⟨.into _ _ _ _ _ (.name s hseg.1 hseg.2.1 h2) a, b⟩

theorem walk_append {a b c : List String} {s t : List (List Char)} (h : Walk a s b)
    (g : Walk b t c) : Walk a (s ++ t) c := by
  induction h with
  | done l => exact g
  | stay l s ss r hm _ ih => exact .stay _ _ _ _ hm (ih g)
  | into l s ss r n hm _ ih => exact .into _ _ _ _ _ hm (ih g)
  | up l s ss r hm _ ih => exact .up _ _ _ _ hm (ih g)

theorem means_unique {s : List Char} {m m' : Move} (h : Means s m) (g : Means s m') : m = m' := by
  cases h <;> cases g <;> first | rfl | simp_all

theorem walk_unique {a b b' : List String} {s : List (List Char)} (h : Walk a s b)
    (g : Walk a s b') : b = b' := by
  induction h with
  | done l => cases g; rfl
  | stay l s ss r hm _ ih =>
    cases g with
    | stay _ _ _ _ hm' g' => exact ih g'
    | into _ _ _ _ n hm' g' => exact absurd (means_unique hm hm') (by simp)
    | up _ _ _ _ hm' g' => exact absurd (means_unique hm hm') (by simp)
  | into l s ss r n hm _ ih =>
    cases g with
    | stay _ _ _ _ hm' g' => exact absurd (means_unique hm hm') (by simp)
    | into _ _ _ _ n' hm' g' =>
      have := means_unique hm hm'
      simp only [Move.into.injEq] at this
      subst this
      exact ih g'
    | up _ _ _ _ hm' g' => exact absurd (means_unique hm hm') (by simp)
  | up l s ss r hm _ ih =>
    cases g with
    | stay _ _ _ _ hm' g' => exact absurd (means_unique hm hm') (by simp)
    | into _ _ _ _ n hm' g' => exact absurd (means_unique hm hm') (by simp)
    | up _ _ _ _ hm' g' => exact ih g'

/-- leading and repeated slashes do not matter -/
theorem foldl_empty (n : Nat) (st : List (List Char)) (ss : List (List Char)) :
    ([] :: ss).foldl (normStep n) st = ss.foldl (normStep n) st := by
  simp [List.foldl_cons, normStep]

theorem splitL_slash (rest : List Char) : splitL '/' ('/' :: rest) = [] :: splitL '/' rest := by
  simp [splitL]

/-- splitting after a slash -/
theorem splitL_append_slash (a b : List Char) :
    splitL '/' (a ++ '/' :: b) = splitL '/' a ++ splitL '/' b := by
  induction a with
  | nil => simp [splitL]
  | cons c cs ih =>
    by_cases hc : c = '/'
    · subst hc
      simp only [List.cons_append, splitL_slash, ih]
    · simp only [List.cons_append, splitL, hc, if_false]
      rw [ih]
      have hne := splitL_ne_nil '/' cs
      cases hq : splitL '/' cs with
      | nil => exact absurd hq hne
      | cons w ws => simp

/-- The components `normpath` keeps for a joined path are those of both parts. -/
theorem foldl_pjoin (n : Nat) (a b : List Char) (ha : a ≠ []) (hb : startsWithL '/' b = false) :
    (splitL '/' (pjoin a b)).foldl (normStep n) [] =
      (splitL '/' a ++ splitL '/' b).foldl (normStep n) [] := by
  unfold pjoin
  simp only [hb, Bool.false_eq_true, if_false, ha, false_or]
  split
  · rename_i hl
    obtain ⟨a', rfl⟩ : ∃ a', a = a' ++ ['/'] := by
      have := List.getLast?_eq_some_iff.mp hl
      exact this
    rw [List.append_assoc, List.singleton_append, splitL_append_slash, splitL_append_slash]
    simp [List.foldl_append, splitL, normStep]
  · rw [splitL_append_slash]

theorem loc_good {stack : List (List Char)} (h : ∀ c ∈ stack, NameSeg c) :
    ∀ n ∈ loc stack, GoodName n := by
  intro n hn
  simp only [loc, List.mem_map, List.mem_reverse] at hn
  obtain ⟨c, hc, rfl⟩ := hn
  obtain ⟨h1, _, _, h4⟩ := h c hc
  refine ⟨?_, by simpa using h4⟩
  intro e
  have := congrArg String.toList e
  simp at this
  exact h1 this

theorem joinL_ofList (segs : List (List Char)) :
    String.ofList ('/' :: joinL '/' segs) =
      if segs = [] then "/" else absRef (segs.map String.ofList) := by
  split
  · rename_i h; subst h; rfl
  · rename_i h
    apply Verif.Pkg.toList_inj
    cases segs with
    | nil => exact absurd rfl h
    | cons s ss =>
      rw [List.map_cons, Verif.Pkg.absRef_eq_slash_rel, ← List.map_cons (f := String.ofList),
        ← Verif.Pkg.join_eq_relRef]
      simp [join, List.map_map, Function.comp_def]

/-- `normpath` of a path with one leading slash. -/
theorem normpath_abs (p : List Char) (h1 : initialSlashes p = 1) :
    String.ofList (normpath p) =
      if loc ((splitL '/' p).foldl (normStep 1) []) = [] then "/"
      else absRef (loc ((splitL '/' p).foldl (normStep 1) [])) := by
  have hne : p ≠ [] := by intro e; subst e; simp [initialSlashes] at h1
  unfold normpath
  simp only [hne, if_false, h1]
  rw [if_neg (by simp)]
  rw [show List.replicate 1 '/' = ['/'] from rfl, List.singleton_append, joinL_ofList]
  simp [loc]

theorem roleGet_set (m : List (Role × String)) (r r' : Role) (p : String) :
    roleGet (roleSet m r p) r' = if r = r' then some p else roleGet m r' := by
  unfold roleSet roleGet
  by_cases hr : r = r'
  · subst hr
    simp only [if_true]
    split
    · rename_i h
      induction m with
      | nil => simp at h
      | cons e m ih =>
        by_cases he : e.1 = r
        · simp [List.map_cons, he]
        · simp only [List.map_cons, he, if_false]
          rw [List.find?_cons_of_neg (by simpa using he)]
          exact ih (by simpa [he] using h)
    · rename_i h
      rw [List.find?_append]
      have : m.find? (fun x => decide (x.1 = r)) = none := by
        rw [List.find?_eq_none]
        intro x hx hxr
        exact h (List.any_eq_true.mpr ⟨x, hx, hxr⟩)
      simp [this]
  · simp only [hr, if_false]
    split
    · induction m with
      | nil => rfl
      | cons e m ih =>
        by_cases he : e.1 = r
        · have hne : e.1 ≠ r' := by rw [he]; exact hr
          simp only [List.map_cons, he, if_true]
          rw [List.find?_cons_of_neg (by simpa using hr), List.find?_cons_of_neg (by simpa using hne)]
          by_cases ha : m.any (·.1 = r)
          · exact ih ha
          · congr 2
            have : ∀ l : List (Role × String), ¬ (l.any (·.1 = r)) = true →
                l.map (fun e => if e.1 = r then (r, p) else e) = l := by
              intro l hl
              induction l with
              | nil => rfl
              | cons x l ihl =>
                simp only [List.any_cons, Bool.or_eq_true, not_or] at hl
                have hx : x.1 ≠ r := by simpa using hl.1
                simp [hx, ihl hl.2]
            exact this m ha
        · simp only [List.map_cons, he, if_false]
          by_cases he' : e.1 = r'
          · simp [he']
          · rw [List.find?_cons_of_neg (by simpa using he'),
              List.find?_cons_of_neg (by simpa using he')]
            exact ih (by rename_i h; simpa [he] using h)
    · rw [List.find?_append]
      simp [hr]

/-- After filling, a role has the path of its last entry. -/
theorem fillMap_get {base : String} {pm : List (String × String)} :
    ∀ {m m' : List (Role × String)}, fillMap base pm m = .ok m' →
      ∀ role, (∀ rn rel pre post, pm = pre ++ (rn, rel) :: post → parseRole rn = .ok role →
          (∀ e ∈ post, parseRole e.1 ≠ .ok role) →
          roleGet m' role = some (String.ofList (pjoin base.toList rel.toList))) ∧
        ((∀ e ∈ pm, parseRole e.1 ≠ .ok role) → roleGet m' role = roleGet m role) := by
  induction pm with
  | nil =>
    intro m m' h role
    simp only [fillMap, Except.ok.injEq] at h
    subst h
    exact ⟨by intro rn rel pre post h; simp at h, fun _ => rfl⟩
  | cons e pm ih =>
    intro m m' h role
    obtain ⟨rn0, rel0⟩ := e
    simp only [fillMap] at h
    cases hp : parseRole rn0 with
    | error e => simp [hp] at h
    | ok r0 =>
      simp only [hp] at h
      obtain ⟨i1, i2⟩ := ih h role
      constructor
      · intro rn rel pre post he hrn hpost
        cases pre with
        | nil =>
          simp only [List.nil_append, List.cons.injEq, Prod.mk.injEq] at he
          obtain ⟨⟨rfl, rfl⟩, rfl⟩ := he
          rw [i2 hpost, roleGet_set]
          rw [hp] at hrn
          simp only [Except.ok.injEq] at hrn
          simp [hrn]
        | cons x pre =>
          simp only [List.cons_append, List.cons.injEq] at he
          exact i1 rn rel pre post he.2 hrn hpost
      · intro hall
        rw [i2 (fun e he => hall e (by simp [he])), roleGet_set]
        have := hall (rn0, rel0) (by simp)
        simp only [hp, ne_eq, Except.ok.injEq] at this
        simp [this]

/-- Filling fails exactly when some role name is unknown, with KeyError. -/
theorem fillMap_outcome (base : String) (pm : List (String × String)) :
    ∀ m, ((∃ m', fillMap base pm m = .ok m') ∧ ∀ e ∈ pm, ∃ r, parseRole e.1 = .ok r) ∨
      (fillMap base pm m = .error .keyError ∧ ∃ e ∈ pm, parseRole e.1 = .error .keyError) := by
  induction pm with
  | nil => intro m; exact .inl ⟨⟨m, rfl⟩, by simp⟩
  | cons e pm ih =>
    intro m
    obtain ⟨rn0, rel0⟩ := e
    cases hp : parseRole rn0 with
    | error e =>
      have : e = .keyError := by
        unfold parseRole at hp
        split at hp
        · simp at hp
        · split at hp
          · simp at hp
          · simpa using hp.symm
      subst this
      exact .inr ⟨by simp [fillMap, hp], (rn0, rel0), by simp, hp⟩
    | ok r0 =>
      rcases ih (roleSet m r0 (String.ofList (pjoin base.toList rel0.toList))) with ⟨⟨m', h⟩, g⟩ | ⟨h, g⟩
      · refine .inl ⟨⟨m', by simpa [fillMap, hp] using h⟩, ?_⟩
        intro e he
        rcases List.mem_cons.mp he with rfl | he
        · exact ⟨r0, hp⟩
        · exact g e he
      · obtain ⟨e, he, hk⟩ := g
        exact .inr ⟨by simpa [fillMap, hp] using h, e, by simp [he], hk⟩

end Verif.Work
