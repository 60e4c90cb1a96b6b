import Verif.Codec.SelectSpec
import Verif.Codec.HistoryPart
/-
The iterations of C70 as a state machine.
-/
set_option linter.unusedSimpArgs false
namespace Verif.Codec.Select
open Verif.Py Verif.Codec Verif.Codec.Spec Verif.Codec.Find Verif.Codec.History Verif.Codec.SelectSpec

theorem test_ok {s : Sel} {v : Val Cls} {b : Bool} (h : test s v = .ok b) : wanted s v = b := by
  cases s with
  | names ns =>
    simp only [test, Except.ok.injEq] at h
    subst h
    simp [wanted, List.contains_iff_mem]
  | regex m =>
    simp only [test] at h
    simp only [wanted]
    split at h
    · cases h
    · rename_i n hn; cases h; rw [hn]; rfl
  | wrong e => cases h
  | kind c =>
    simp only [test, Except.ok.injEq] at h
    subst h
    by_cases hc : classOf v = some c <;> simp [wanted, hc]

theorem test_error {s : Sel} {v : Val Cls} {e : PyErr} (h : test s v = .error e) {l : List (Val Cls)} (hv : v ∈ l) :
    Fails s l e := by
  cases s with
  | names ns => cases h
  | regex m =>
    simp only [test] at h
    split at h
    · rename_i hn; cases h; exact .inr ⟨rfl, ⟨m, rfl⟩, v, hv, hn⟩
    · cases h
  | wrong e => cases h; exact .inl rfl
  | kind c => cases h

/-- No exception on these items. -/
def Fine (s : Sel) (l : List (Val Cls)) : Prop := ∀ v ∈ l, ∃ b, test s v = .ok b

theorem fine_fails {s : Sel} {l : List (Val Cls)} (h : Fine s l) (hw : ∀ e, s ≠ .wrong e) (e : PyErr) :
    ¬ Fails s l e := by
  rintro (h1 | ⟨-, ⟨m, rfl⟩, v, hv, hn⟩)
  · exact hw e h1
  · obtain ⟨b, hb⟩ := h v hv
    simp only [test, hn] at hb
    cases hb

/-- What the loop does on the rest of a list. -/
theorem scan_spec (s : Sel) : ∀ (rest pre : List (Val Cls)),
    match scan s pre.length rest with
    | (.item v, g) => ∃ mid tl, rest = mid ++ v :: tl ∧ mid.filter (wanted s) = [] ∧ wanted s v = true ∧
        g = .pos (pre.length + mid.length + 1) ∧ Fine s (mid ++ [v])
    | (.stop, g) => rest.filter (wanted s) = [] ∧ g = .done ∧ Fine s rest
    | (.raised e, g) => Fails s (pre ++ rest) e ∧ g = .done := by
  intro rest
  induction rest with
  | nil => intro pre; simp [scan, Fine]
  | cons v rest ih =>
    intro pre
    simp only [scan]
    cases h : test s v with
    | error e => exact ⟨test_error h (by simp), rfl⟩
    | ok b =>
      have hb := test_ok h
      cases b with
      | true => exact ⟨[], rest, rfl, rfl, hb, rfl, by simp [Fine, h]⟩
      | false =>
        have := ih (pre ++ [v])
        simp only [List.length_append, List.length_singleton] at this
        revert this
        simp only
        cases hs : scan s (pre.length + 1) rest with
        | mk a g =>
          cases a with
          | item w =>
            rintro ⟨mid, tl, rfl, m1, m2, rfl, m3⟩
            refine ⟨v :: mid, tl, rfl, by simp [List.filter_cons, hb, m1], m2, ?_, ?_⟩
            · congr 1
              simp only [List.length_cons]
              omega
            · intro u hu
              rcases List.mem_cons.1 hu with rfl | hu
              · exact ⟨_, h⟩
              · exact m3 u hu
          | stop =>
            rintro ⟨m1, m2, m3⟩
            refine ⟨by simp [List.filter_cons, hb, m1], m2, fun u hu => ?_⟩
            rcases List.mem_cons.1 hu with rfl | hu
            · exact ⟨_, h⟩
            · exact m3 u hu
          | raised e =>
            rintro ⟨m1, m2⟩
            exact ⟨by simpa using m1, m2⟩

/-- An iteration that has yielded `ys` and ended (`fin`) or not, when the list is `l`. -/
def Stage (l : List (Val Cls)) (s : Sel) (ys : List (Val Cls)) (fin : Bool) : Gen → Prop
  | .new => ys = [] ∧ fin = false
  | .pos i => fin = false ∧ i ≤ l.length ∧ ys = (l.take i).filter (wanted s) ∧ Fine s (l.take i) ∧
      ∀ e, s ≠ .wrong e
  | .done => fin = true ∧ ys <+: l.filter (wanted s)

theorem stage_grow {l l' : List (Val Cls)} (h : l <+: l') {s : Sel} {ys : List (Val Cls)} {fin : Bool} {g : Gen}
    (hs : Stage l s ys fin g) : Stage l' s ys fin g := by
  obtain ⟨t, rfl⟩ := h
  cases g with
  | new => exact hs
  | pos i =>
    obtain ⟨h1, h2, h3⟩ := hs
    refine ⟨h1, by simp; omega, ?_⟩
    rw [List.take_append_of_le_length h2]
    exact h3
  | done =>
    refine ⟨hs.1, hs.2.trans ?_⟩
    rw [List.filter_append]
    exact List.prefix_append _ _

theorem stage_prefix {l : List (Val Cls)} {s : Sel} {ys : List (Val Cls)} {fin : Bool} {g : Gen}
    (hs : Stage l s ys fin g) : ys <+: l.filter (wanted s) := by
  cases g with
  | new => rw [hs.1]; exact List.nil_prefix
  | pos i =>
    rw [hs.2.2.1]
    have : l.filter (wanted s) = (l.take i).filter (wanted s) ++ (l.drop i).filter (wanted s) := by
      rw [← List.filter_append, List.take_append_drop]
    rw [this]
    exact List.prefix_append _ _
  | done => exact hs.2

/-- What `next` may answer, and what it makes of the stage. -/
def AnswerOk (l : List (Val Cls)) (s : Sel) (ys : List (Val Cls)) (fin : Bool) : Answer → Prop
  | .item v => fin = false ∧ ys ++ [v] <+: l.filter (wanted s)
  | .stop => fin = true ∨ ys = l.filter (wanted s) ∧ ∀ e, ¬ Fails s l e
  | .raised e => fin = false ∧ Fails s l e

def after (ys : List (Val Cls)) : Answer → List (Val Cls)
  | .item v => ys ++ [v]
  | _ => ys

def fins (fin : Bool) : Answer → Bool
  | .item _ => fin
  | _ => true

theorem scan_stage {l : List (Val Cls)} {s : Sel} {i : Nat} (hi : i ≤ l.length) {ys : List (Val Cls)}
    (hy : ys = (l.take i).filter (wanted s)) (hf : Fine s (l.take i)) (hw : ∀ e, s ≠ .wrong e) :
    AnswerOk l s ys false (scan s i (l.drop i)).1 ∧
    Stage l s (after ys (scan s i (l.drop i)).1) (fins false (scan s i (l.drop i)).1) (scan s i (l.drop i)).2 := by
  have h := scan_spec s (l.drop i) (l.take i)
  have hlen : (l.take i).length = i := by simp; omega
  rw [hlen, List.take_append_drop] at h
  have hsplit : l.filter (wanted s) = ys ++ (l.drop i).filter (wanted s) := by
    rw [hy, ← List.filter_append, List.take_append_drop]
  revert h
  cases scan s i (l.drop i) with
  | mk a g =>
    cases a with
    | item v =>
      rintro ⟨mid, tl, h1, h2, h3, rfl, h4⟩
      have hf' : (l.drop i).filter (wanted s) = v :: tl.filter (wanted s) := by
        rw [h1, List.filter_append, h2, List.filter_cons, h3]; rfl
      have hp : ys ++ [v] <+: l.filter (wanted s) := by
        rw [hsplit, hf']; exact ⟨tl.filter (wanted s), by simp⟩
      have hl : l = (l.take i ++ mid ++ [v]) ++ tl :=
        (List.take_append_drop i l).symm.trans (by rw [h1]; simp)
      refine ⟨⟨rfl, hp⟩, rfl, ?_, ?_⟩
      · have := congrArg List.length h1
        simp at this; omega
      · simp only [after]
        have ht : l.take (i + mid.length + 1) = l.take i ++ mid ++ [v] := by
          have hn : (l.take i ++ mid ++ [v]).length = i + mid.length + 1 := by
            simp only [List.length_append, hlen, List.length_singleton]
          refine (congrArg (List.take _) hl).trans ?_
          rw [← hn]
          exact List.take_left
        rw [ht, List.filter_append, List.filter_append, h2, ← hy, List.append_nil]
        refine ⟨by simp [List.filter_cons, h3], fun u hu => ?_, hw⟩
        rw [List.append_assoc] at hu
        rcases List.mem_append.1 hu with hu | hu
        · exact hf u hu
        · exact h4 u hu
    | stop =>
      rintro ⟨h1, rfl, h4⟩
      rw [h1, List.append_nil] at hsplit
      have hall : Fine s l := by
        intro u hu
        rw [← List.take_append_drop i l] at hu
        rcases List.mem_append.1 hu with hu | hu
        · exact hf u hu
        · exact h4 u hu
      exact ⟨.inr ⟨hsplit.symm, fine_fails hall hw⟩, rfl, by rw [hsplit]; exact List.prefix_refl _⟩
    | raised e =>
      rintro ⟨h1, rfl⟩
      exact ⟨⟨rfl, h1⟩, rfl, by rw [hsplit]; exact List.prefix_append _ _⟩

theorem next_stage {l : List (Val Cls)} {s : Sel} {g : Gen} {ys : List (Val Cls)} {fin : Bool}
    (h : Stage l s ys fin g) : AnswerOk l s ys fin (next s l g).1 ∧
    Stage l s (after ys (next s l g).1) (fins fin (next s l g).1) (next s l g).2 := by
  cases g with
  | new =>
    obtain ⟨rfl, rfl⟩ := h
    simp only [next]
    split
    · exact ⟨⟨rfl, .inl rfl⟩, rfl, List.nil_prefix⟩
    · rename_i hw
      have := scan_stage (l := l) (s := s) (i := 0) (Nat.zero_le _) (ys := []) rfl (by simp [Fine])
        (fun e he => hw e he)
      simpa using this
  | pos i =>
    obtain ⟨rfl, h1, h2, h3, h4⟩ := h
    exact scan_stage h1 h2 h3 h4
  | done =>
    obtain ⟨rfl, h1⟩ := h
    exact ⟨.inl rfl, rfl, h1⟩

theorem yielded_append (k : Nat) (a b : List (Nat × Answer)) : yielded k (a ++ b) = yielded k a ++ yielded k b := by
  simp [yielded]

theorem ended_append (k : Nat) (a b : List (Nat × Answer)) : ended k (a ++ b) = (ended k a || ended k b) := by
  simp [ended]

theorem run_append {S A : Type} (K : Kind S A) : ∀ (a b : List (Step A)) (st : State S),
    run K st (a ++ b) = ((run K (run K st a).1 b).1, (run K st a).2 ++ (run K (run K st a).1 b).2) := by
  intro a
  induction a with
  | nil => intro b st; simp [run]
  | cons s a ih => intro b st; simp [run, ih]

/-- All iterations are at the stage the log tells. -/
def Inv {S A : Type} (K : Kind S A) (good : S → Prop) (st : State S) (log : List (Nat × Answer)) : Prop :=
  good st.obj ∧ (∀ k s g, st.gens[k]? = some (s, g) →
    Stage (K.items st.obj) s (yielded k log) (ended k log) g) ∧ ∀ k, st.gens.length ≤ k → yielded k log = [] ∧ ended k log = false

theorem step_inv {S A : Type} {K : Kind S A} {good : S → Prop} (hg : Grows K good) {st : State S}
    {log : List (Nat × Answer)} (h : Inv K good st log) (a : Step A) :
    Inv K good (step K st a).1 (log ++ (step K st a).2) := by
  obtain ⟨h1, h2, h3⟩ := h
  cases a with
  | act a =>
    obtain ⟨g1, g2⟩ := hg a _ h1
    simp only [step, List.append_nil]
    exact ⟨g1, fun k s g hk => stage_grow g2 (h2 k s g hk), h3⟩
  | start s =>
    simp only [step, List.append_nil]
    refine ⟨h1, fun k s' g hk => ?_, fun k hk => h3 k (by simp at hk; omega)⟩
    simp only at hk
    rw [List.getElem?_append] at hk
    split at hk
    · exact h2 k s' g hk
    · rename_i hlt
      obtain ⟨e1, e2⟩ := h3 k (by omega)
      have : k - st.gens.length = 0 := by
        cases hd : k - st.gens.length with
        | zero => rfl
        | succ n => rw [hd] at hk; simp at hk
      rw [this] at hk
      simp only [List.getElem?_cons_zero, Option.some.injEq, Prod.mk.injEq] at hk
      obtain ⟨rfl, rfl⟩ := hk
      exact ⟨e1, e2⟩
  | next j =>
    simp only [step]
    cases hj : st.gens[j]? with
    | none => simp only [List.append_nil]; exact ⟨h1, h2, h3⟩
    | some p =>
      obtain ⟨s0, g0⟩ := p
      simp only
      have hlt : j < st.gens.length := by
        rcases Nat.lt_or_ge j st.gens.length with h | h
        · exact h
        · rw [List.getElem?_eq_none h] at hj; cases hj
      obtain ⟨n1, n2⟩ := next_stage (h2 j s0 g0 hj)
      have other : ∀ (k : Nat) (an : Answer), k ≠ j → yielded k [(j, an)] = [] ∧ ended k [(j, an)] = false := by
        intro k an hk
        cases an <;> simp [yielded, ended, Ne.symm hk]
      refine ⟨h1, fun k s g hk => ?_, fun k hk => ?_⟩
      · simp only at hk ⊢
        by_cases hkj : k = j
        · subst hkj
          rw [List.getElem?_set_self hlt] at hk
          cases hk
          rw [yielded_append, ended_append]
          revert n2
          generalize (next s0 (K.items st.obj) g0) = r
          obtain ⟨an, g'⟩ := r
          cases an <;> simp [yielded, ended, after, fins]
        · rw [List.getElem?_set_ne (Ne.symm hkj)] at hk
          obtain ⟨o1, o2⟩ := other k (next s0 (K.items st.obj) g0).1 hkj
          rw [yielded_append, ended_append, o1, o2, List.append_nil, Bool.or_false]
          exact h2 k s g hk
      · simp only [List.length_set] at hk
        obtain ⟨o1, o2⟩ := other k (next s0 (K.items st.obj) g0).1 (by omega)
        rw [yielded_append, ended_append, o1, o2, List.append_nil, Bool.or_false]
        exact h3 k hk

theorem run_inv {S A : Type} {K : Kind S A} {good : S → Prop} (hg : Grows K good) :
    ∀ (steps : List (Step A)) (st : State S) (log : List (Nat × Answer)), Inv K good st log →
      Inv K good (run K st steps).1 (log ++ (run K st steps).2) := by
  intro steps
  induction steps with
  | nil => intro st log h; simpa [run] using h
  | cons s rest ih =>
    intro st log h
    have := ih _ _ (step_inv hg h s)
    simpa [run] using this

theorem run_frame {S A : Type} {K : Kind S A} : ∀ (steps : List (Step A)) (st : State S),
    (run K st steps).1.obj = (acts steps).foldl (fun o a => K.act a o) st.obj ∧
    (run K st steps).1.gens.map Prod.fst = st.gens.map Prod.fst ++ starts steps := by
  intro steps
  induction steps with
  | nil => intro st; simp [run, acts, starts]
  | cons s rest ih =>
    intro st
    obtain ⟨i1, i2⟩ := ih (step K st s).1
    cases s with
    | act a => exact ⟨i1, i2⟩
    | start s => exact ⟨i1, by rw [run]; simp only; rw [i2]; simp [step, starts]⟩
    | next k =>
      simp only [run]
      rw [i1, i2]
      simp only [step]
      cases hk : st.gens[k]? with
      | none => exact ⟨rfl, rfl⟩
      | some p =>
        obtain ⟨s, g⟩ := p
        refine ⟨rfl, ?_⟩
        simp only [List.map_set]
        congr 1
        refine List.ext_getElem? fun n => ?_
        by_cases hn : n = k
        · subst hn
          have hlt : n < st.gens.length := by
            rcases Nat.lt_or_ge n st.gens.length with h | h
            · exact h
            · rw [List.getElem?_eq_none h] at hk; cases hk
          rw [List.getElem?_set_self (by simpa using hlt)]
          simp [List.getElem?_map, hk]
        · rw [List.getElem?_set_ne (Ne.symm hn)]

/-! ### Packages and components -/

theorem packages_grow : Grows packages fun _ => True := by
  intro x p _
  refine ⟨trivial, ?_⟩
  cases p with
  | mk h es ps =>
    simp only [packages, put]
    split
    · exact List.prefix_refl _
    · cases x with
      | element v => exact List.prefix_append _ _
      | package q => exact List.prefix_refl _

/-- The classes of components. -/
def isComponent (v : Val Cls) : Prop :=
  classOf v = some .ApplicationSoftwareComponentType ∨ classOf v = some .CompositionSwComponentType

theorem components_grow : Grows components isComponent := by
  rintro ⟨m, x⟩ v hv
  cases v with
  | obj c fs =>
    simp only [components]
    cases h : choose c m x with
    | error e => exact ⟨hv, List.prefix_refl _⟩
    | ok p =>
      obtain ⟨a, y⟩ := p
      simp only
      refine ⟨hv, ?_⟩
      rw [withPart_eq]
      have hp : "ports" ∈ (Schema.ctor c).map Field.attr := by
        simp only [isComponent, classOf, Option.some.injEq] at hv
        rcases hv with rfl | rfl <;> decide
      have hm : members (.obj c (History.pick ((Schema.ctor c).map Field.attr) fun k =>
          if k = a then some (.list (members (.obj c fs) a ++ [y])) else dictGet fs k)) "ports" =
          if "ports" = a then members (.obj c fs) a ++ [y] else members (.obj c fs) "ports" := by
        rw [members]
        simp only [pick_get, if_pos hp]
        by_cases ha : "ports" = a
        · simp only [if_pos ha]
        · simp only [if_neg ha, members]
      rw [hm]
      split
      · rename_i ha; subst ha; exact List.prefix_append _ _
      · exact List.prefix_refl _
  | _ => rcases hv with h | h <;> cases h

end Verif.Codec.Select
