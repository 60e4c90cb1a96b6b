import Verif.Impl.Lemmas
/- Helper lemmas for C31: dependency trees and the creation order. -/
set_option linter.unusedSimpArgs false
set_option linter.unusedVariables false
namespace Verif.Impl
open Verif.Py Spec

theorem mapE_get {α β : Type} {f : α → Except PyErr β} {as : List α} {bs : List β}
    (h : mapE f as = .ok bs) : as.length = bs.length ∧
      ∀ (i : Nat) b, bs[i]? = some b → ∃ a, as[i]? = some a ∧ f a = .ok b := by
  induction as generalizing bs with
  | nil => simp [mapE] at h; subst h; simp
  | cons a as ih =>
    simp only [mapE] at h
    cases ha : f a with
    | error e => simp [ha] at h
    | ok b =>
      simp only [ha] at h
      cases hm : mapE f as with
      | error e => simp [hm] at h
      | ok bs' =>
        simp only [hm, Except.ok.injEq] at h
        subst h
        obtain ⟨h1, h2⟩ := ih hm
        refine ⟨by simp [h1], ?_⟩
        intro i b' hb
        cases i with
        | zero => simp only [List.getElem?_cons_zero, Option.some.injEq] at hb; subst hb; exact ⟨a, rfl, ha⟩
        | succ i => simpa using h2 i b' (by simpa using hb)

theorem mapE_mem {α β : Type} {f : α → Except PyErr β} {as : List α} {bs : List β}
    (h : mapE f as = .ok bs) : (∀ a ∈ as, ∃ b ∈ bs, f a = .ok b) ∧ (∀ b ∈ bs, ∃ a ∈ as, f a = .ok b) := by
  induction as generalizing bs with
  | nil => simp [mapE] at h; subst h; simp
  | cons a as ih =>
    simp only [mapE] at h
    cases ha : f a with
    | error e => simp [ha] at h
    | ok b =>
      simp only [ha] at h
      cases hm : mapE f as with
      | error e => simp [hm] at h
      | ok bs' =>
        simp only [hm, Except.ok.injEq] at h
        subst h
        obtain ⟨h1, h2⟩ := ih hm
        constructor
        · intro x hx
          rcases List.mem_cons.mp hx with rfl | hx
          · exact ⟨b, by simp, ha⟩
          · obtain ⟨y, hy, hf⟩ := h1 x hx; exact ⟨y, by simp [hy], hf⟩
        · intro x hx
          rcases List.mem_cons.mp hx with rfl | hx
          · exact ⟨a, by simp, ha⟩
          · obtain ⟨y, hy, hf⟩ := h2 x hx; exact ⟨y, by simp [hy], hf⟩

theorem mapE_total {α β : Type} {f : α → Except PyErr β} {as : List α}
    (h : ∀ a ∈ as, ∃ b, f a = .ok b) : ∃ bs, mapE f as = .ok bs := by
  induction as with
  | nil => exact ⟨[], rfl⟩
  | cons a as ih =>
    obtain ⟨b, hb⟩ := h a (by simp)
    obtain ⟨bs, hbs⟩ := ih (fun x hx => h x (by simp [hx]))
    exact ⟨b :: bs, by simp [mapE, hb, hbs]⟩

theorem mapE_map {α β γ : Type} {f : α → Except PyErr β} {g : β → γ} {k : α → γ} {as : List α} {bs : List β}
    (hf : ∀ a b, f a = .ok b → g b = k a) (h : mapE f as = .ok bs) : bs.map g = as.map k := by
  induction as generalizing bs with
  | nil => simp [mapE] at h; subst h; rfl
  | cons a as ih =>
    simp only [mapE] at h
    cases ha : f a with
    | error e => simp [ha] at h
    | ok b =>
      simp only [ha] at h
      cases hm : mapE f as with
      | error e => simp [hm] at h
      | ok bs' =>
        simp only [hm, Except.ok.injEq] at h
        subst h
        simp [hf a b ha, ih hm]

/-- A tree that mirrors the objects. -/
inductive Good (objs : List RObj) : Tree → Prop
  | node (o ts obj cs) : objs[o]? = some obj → treeChildren obj = .ok cs →
      ts.map Tree.data = cs → (∀ t ∈ ts, Good objs t) → Good objs (.node o ts)

theorem treeOf_spec (n : Nat) (objs : List RObj) : ∀ o t, treeOf n objs o = .ok t →
    t.data = o ∧ Good objs t := by
  induction n with
  | zero => intro o t h; simp [treeOf] at h
  | succ n ih =>
    intro o t h
    simp only [treeOf] at h
    cases ho : objs[o]? with
    | none => simp [ho] at h
    | some obj =>
      simp only [ho] at h
      cases hc : treeChildren obj with
      | error e => simp [hc] at h
      | ok cs =>
        simp only [hc] at h
        cases hm : mapE (treeOf n objs) cs with
        | error e => simp [hm] at h
        | ok ts =>
          simp only [hm, Except.ok.injEq] at h
          subst h
          refine ⟨rfl, .node _ _ obj cs ho hc ?_ ?_⟩
          · have := mapE_map (g := Tree.data) (k := id) (fun a b hab => (ih a b hab).1) hm
            simpa using this
          · intro t ht
            obtain ⟨c, _, hf⟩ := (mapE_mem hm).2 t ht
            exact (ih c t hf).2

theorem mem_bfs (q : List Tree) : ∀ t ∈ q, t ∈ bfs q := by
  fun_induction bfs q with
  | case1 => simp
  | case2 t q ih =>
    intro x hx
    rcases List.mem_cons.mp hx with rfl | hx
    · simp
    · exact List.mem_cons_of_mem _ (ih x (by simp [hx]))

theorem bfs_good {objs : List RObj} (q : List Tree) (h : ∀ t ∈ q, Good objs t) :
    ∀ t ∈ bfs q, Good objs t := by
  fun_induction bfs q with
  | case1 => simp
  | case2 t q ih =>
    have hg := h t (by simp)
    intro x hx
    rcases List.mem_cons.mp hx with rfl | hx
    · exact hg
    · refine ih ?_ x hx
      intro y hy
      rcases List.mem_append.mp hy with hy | hy
      · exact h y (by simp [hy])
      · cases hg with
        | node o ts obj cs _ _ _ h4 => exact h4 y (by simpa [Tree.children] using hy)

/-- Children stand after their parents. -/
def Fwd : List Tree → Prop
  | [] => True
  | t :: l => (∀ c ∈ t.children, c ∈ l) ∧ Fwd l

theorem bfs_fwd (q : List Tree) : Fwd (bfs q) := by
  fun_induction bfs q with
  | case1 => trivial
  | case2 t q ih => exact ⟨fun c hc => mem_bfs _ c (by simp [hc]), ih⟩

theorem Fwd.split {l : List Tree} (h : Fwd l) : ∀ pre t suf, l = pre ++ t :: suf →
    ∀ c ∈ t.children, c ∈ suf := by
  induction l with
  | nil => intro pre t suf h; simp at h
  | cons a l ih =>
    intro pre t suf he c hc
    cases pre with
    | nil => simp at he; obtain ⟨rfl, rfl⟩ := he; exact h.1 c hc
    | cons b pre =>
      simp only [List.cons_append, List.cons.injEq] at he
      exact ih h.2 pre t suf he.2 c hc

/-- Every entry is an object whose tree children occur earlier. -/
def Prior (objs : List RObj) (L : List Oid) : Prop :=
  ∀ pre o suf, L = pre ++ o :: suf →
    ∃ obj cs, objs[o]? = some obj ∧ treeChildren obj = .ok cs ∧ ∀ c ∈ cs, c ∈ pre

theorem creationOrder_prior {objs : List RObj} {t : Tree} (h : Good objs t) :
    Prior objs (creationOrder t) := by
  intro pre o suf he
  have he' : (bfs [t]).map Tree.data = suf.reverse ++ o :: pre.reverse := by
    have := congrArg List.reverse he
    simpa [creationOrder] using this
  obtain ⟨l1, l2, hl, hl1, hl2⟩ := List.map_eq_append_iff.mp he'
  obtain ⟨x, l3, rfl, hx, hl3⟩ := List.map_eq_cons_iff.mp hl2
  have hg := bfs_good [t] (by simpa using h) x (by rw [hl]; simp)
  have hf := (bfs_fwd [t]).split l1 x l3 hl
  cases hg with
  | node o' ts obj cs h1 h2 h3 h4 =>
    simp only [Tree.data] at hx
    subst hx
    refine ⟨obj, cs, h1, h2, ?_⟩
    intro c hc
    rw [← h3] at hc
    obtain ⟨y, hy, rfl⟩ := List.mem_map.mp hc
    have : y.data ∈ pre.reverse := by
      rw [← hl3]; exact List.mem_map_of_mem (hf y hy)
    simpa using this

theorem Prior.append {objs : List RObj} {a b : List Oid} (ha : Prior objs a) (hb : Prior objs b) :
    Prior objs (a ++ b) := by
  intro pre o suf he
  rcases List.append_eq_append_iff.mp he with ⟨c, rfl, hc⟩ | ⟨c, rfl, hc⟩
  · obtain ⟨obj, cs, h1, h2, h3⟩ := hb c o suf hc
    exact ⟨obj, cs, h1, h2, fun x hx => by simp [h3 x hx]⟩
  · cases c with
    | nil =>
      simp only [List.nil_append] at hc
      obtain ⟨obj, cs, h1, h2, h3⟩ := hb [] o suf (by simpa using hc.symm)
      exact ⟨obj, cs, h1, h2, fun x hx => absurd (h3 x hx) (by simp)⟩
    | cons y c =>
      simp only [List.cons_append, List.cons.injEq] at hc
      obtain ⟨rfl, -⟩ := hc
      exact ha pre o c rfl

theorem Prior.flatten {objs : List RObj} (Ls : List (List Oid)) (h : ∀ L ∈ Ls, Prior objs L) :
    Prior objs Ls.flatten := by
  induction Ls with
  | nil => intro pre o suf he; simp at he
  | cons L Ls ih =>
    rw [List.flatten_cons]
    exact (h L (by simp)).append (ih fun x hx => h x (by simp [hx]))

theorem dedup_split (objs : List RObj) (L : List Oid) : ∀ seen pre o suf,
    dedup objs seen L = pre ++ o :: suf →
    ∃ L1 L2 obj, L = L1 ++ o :: L2 ∧ pre = dedup objs seen L1 ∧ objs[o]? = some obj ∧
      included obj = true := by
  induction L with
  | nil => intro seen pre o suf h; simp [dedup] at h
  | cons a L ih =>
    intro seen pre o suf h
    rw [dedup] at h
    cases ha : objs[a]? with
    | none =>
      simp only [ha] at h
      obtain ⟨L1, L2, obj, rfl, h2, h3⟩ := ih seen pre o suf h
      exact ⟨a :: L1, L2, obj, rfl, by rw [dedup]; simpa [ha] using h2, h3⟩
    | some obj =>
      simp only [ha] at h
      split at h
      · rename_i hs
        obtain ⟨L1, L2, obj', rfl, h2, h3⟩ := ih seen pre o suf h
        exact ⟨a :: L1, L2, obj', rfl, by rw [dedup]; simp only [ha, hs, if_true]; exact h2, h3⟩
      · rename_i hs
        split at h
        · rename_i hi
          cases pre with
          | nil =>
            simp only [List.nil_append, List.cons.injEq] at h
            obtain ⟨rfl, h⟩ := h
            exact ⟨[], L, obj, rfl, rfl, ha, hi⟩
          | cons b pre =>
            simp only [List.cons_append, List.cons.injEq] at h
            obtain ⟨rfl, h⟩ := h
            obtain ⟨L1, L2, obj', rfl, h2, h3⟩ := ih _ pre o suf h
            refine ⟨a :: L1, L2, obj', rfl, ?_, h3⟩
            rw [dedup]
            simp only [ha, hs, hi, if_true, if_false, Bool.false_eq_true]
            rw [h2]
        · rename_i hi
          obtain ⟨L1, L2, obj', rfl, h2, h3⟩ := ih _ pre o suf h
          refine ⟨a :: L1, L2, obj', rfl, ?_, h3⟩
          rw [dedup]
          simp only [ha, hs, hi, if_true, if_false, Bool.false_eq_true]
          rw [h2]

/-- References are pairwise different. -/
def RefInj (objs : List RObj) : Prop :=
  ∀ (a b : Nat) x y, objs[a]? = some x → objs[b]? = some y → x.ref = y.ref → a = b

theorem mem_dedup {objs : List RObj} (hinj : RefInj objs) (L : List Oid) : ∀ seen c obj,
    c ∈ L → objs[c]? = some obj → included obj = true → obj.ref ∉ seen →
    c ∈ dedup objs seen L := by
  induction L with
  | nil => intro seen c obj h; simp at h
  | cons a L ih =>
    intro seen c obj hc ho hi hs
    rw [dedup]
    by_cases hac : c = a
    · subst hac
      simp [ho, hs, hi]
    · have hc' : c ∈ L := by
        rcases List.mem_cons.mp hc with h | h
        · exact absurd h hac
        · exact h
      cases ha : objs[a]? with
      | none => simp only; exact ih seen c obj hc' ho hi hs
      | some oa =>
        simp only
        have hne : obj.ref ∉ oa.ref :: seen := by
          simp only [List.mem_cons, not_or]
          exact ⟨fun h => hac (hinj c a obj oa ho ha h), hs⟩
        split
        · exact ih seen c obj hc' ho hi hs
        · split
          · exact List.mem_cons_of_mem _ (ih _ c obj hc' ho hi hne)
          · exact ih _ c obj hc' ho hi hne

theorem dedup_refs (objs : List RObj) (L : List Oid) : ∀ seen, ∀ o ∈ dedup objs seen L,
    ∃ obj, objs[o]? = some obj ∧ obj.ref ∉ seen ∧ included obj = true ∧ o ∈ L := by
  induction L with
  | nil => intro seen o h; simp [dedup] at h
  | cons a L ih =>
    intro seen o h
    rw [dedup] at h
    cases ha : objs[a]? with
    | none =>
      simp only [ha] at h
      obtain ⟨obj, h1, h2, h3, h4⟩ := ih seen o h
      exact ⟨obj, h1, h2, h3, by simp [h4]⟩
    | some oa =>
      simp only [ha] at h
      split at h
      · obtain ⟨obj, h1, h2, h3, h4⟩ := ih seen o h
        exact ⟨obj, h1, h2, h3, by simp [h4]⟩
      · rename_i hs
        split at h
        · rename_i hi
          rcases List.mem_cons.mp h with rfl | h
          · exact ⟨oa, ha, by simpa using hs, hi, by simp⟩
          · obtain ⟨obj, h1, h2, h3, h4⟩ := ih _ o h
            exact ⟨obj, h1, fun x => h2 (by simp [x]), h3, by simp [h4]⟩
        · obtain ⟨obj, h1, h2, h3, h4⟩ := ih _ o h
          exact ⟨obj, h1, fun x => h2 (by simp [x]), h3, by simp [h4]⟩

theorem dedup_nodup (objs : List RObj) (L : List Oid) : ∀ seen, (dedup objs seen L).Nodup := by
  induction L with
  | nil => intro seen; simp [dedup]
  | cons a L ih =>
    intro seen
    rw [dedup]
    cases ha : objs[a]? with
    | none => exact ih seen
    | some oa =>
      simp only
      split
      · exact ih seen
      · split
        · refine List.nodup_cons.mpr ⟨?_, ih _⟩
          intro h
          obtain ⟨obj, h1, h2, _⟩ := dedup_refs objs L _ a h
          rw [ha] at h1; cases h1
          simp at h2
        · exact ih _

theorem mem_insertS (a b : String) (l : List String) : a ∈ insertS b l ↔ a = b ∨ a ∈ l := by
  induction l with
  | nil => simp [insertS]
  | cons c l ih =>
    rw [insertS]; split
    · simp
    · simp [ih]; grind

theorem mem_sortS (a : String) (l : List String) : a ∈ sortS l ↔ a ∈ l := by
  induction l with
  | nil => simp [sortS]
  | cons c l ih => simp [sortS, mem_insertS, ih]

theorem Inv.inj {env : Env} {st : State} (h : Inv env st) : RefInj st.objs := by
  intro a b x y ha hb hr
  have h1 := h.all a x ha
  have h2 := h.all b y hb
  rw [hr, h2] at h1
  cases h1; rfl

theorem treeChildren_sub {obj : RObj} {cs : List Oid} (h : treeChildren obj = .ok cs) :
    ∀ c ∈ cs, c ∈ obj.children := by
  unfold treeChildren at h
  split at h <;> simp only [Except.ok.injEq, reduceCtorEq] at h <;> subst h <;>
    simp [RObj.children, ElemType.child]
  intro c a t he h
  refine ⟨a, t, he, ?_⟩
  cases t <;> simp at h
  simp [h]

/-- Without pointers every object has a tree. -/
theorem treeOf_total {env : Env} {st : State} (hi : Inv env st)
    (hp : ∀ (o : Nat) obj, st.objs[o]? = some obj → ∃ cs, treeChildren obj = .ok cs) :
    ∀ n o, o < n → o < st.objs.length → ∃ t, treeOf n st.objs o = .ok t := by
  intro n
  induction n with
  | zero => intro o h; omega
  | succ n ih =>
    intro o h1 h2
    obtain ⟨obj, ho⟩ : ∃ obj, st.objs[o]? = some obj := ⟨_, List.getElem?_eq_getElem h2⟩
    obtain ⟨cs, hcs⟩ := hp o obj ho
    have : ∃ ts, mapE (treeOf n st.objs) cs = .ok ts := by
      refine mapE_total ?_
      intro c hc
      have := hi.down o obj ho c (treeChildren_sub hcs c hc)
      exact ih c (by omega) (by omega)
    obtain ⟨ts, hts⟩ := this
    exact ⟨.node o ts, by simp only [treeOf, ho, hcs, hts]⟩

/-- The concatenated orders are all in dependency order and contain all sources. -/
theorem genTrees_prior {st : State} {ts : List Tree} (h : genTrees st = .ok ts) :
    Prior st.objs (ts.map creationOrder).flatten ∧
    (∀ r ∈ st.sources, ∃ o, dictGet st.types r = some o ∧ o ∈ (ts.map creationOrder).flatten) := by
  unfold genTrees at h
  obtain ⟨h1, h2⟩ := mapE_mem h
  constructor
  · refine Prior.flatten _ ?_
    intro L hL
    obtain ⟨t, ht, rfl⟩ := List.mem_map.mp hL
    obtain ⟨r, _, hf⟩ := h2 t ht
    cases hr : dictGet st.types r with
    | none => simp [hr] at hf
    | some o =>
      simp only [hr] at hf
      exact creationOrder_prior (treeOf_spec _ _ _ _ hf).2
  · intro r hr
    obtain ⟨t, ht, hf⟩ := h1 r ((mem_sortS _ _).mpr hr)
    cases hd : dictGet st.types r with
    | none => simp [hd] at hf
    | some o =>
      simp only [hd] at hf
      refine ⟨o, rfl, ?_⟩
      refine List.mem_flatten.mpr ⟨creationOrder t, List.mem_map_of_mem ht, ?_⟩
      have := (treeOf_spec _ _ _ _ hf).1
      rw [creationOrder, List.mem_reverse, ← this]
      exact List.mem_map_of_mem (mem_bfs [t] t (by simp))

theorem bfs_needed {st : State} (q : List Tree) (h : ∀ t ∈ q, Good st.objs t ∧ Needed st t.data) :
    ∀ t ∈ bfs q, Needed st t.data := by
  fun_induction bfs q with
  | case1 => simp
  | case2 t q ih =>
    obtain ⟨hg, hn⟩ := h t (by simp)
    intro x hx
    rcases List.mem_cons.mp hx with rfl | hx
    · exact hn
    · refine ih ?_ x hx
      intro y hy
      rcases List.mem_append.mp hy with hy | hy
      · exact h y (by simp [hy])
      · cases hg with
        | node o ts obj cs h1 h2 h3 h4 =>
          have hy' : y ∈ ts := by simpa [Tree.children] using hy
          refine ⟨h4 y hy', .uses _ _ obj hn h1 ?_⟩
          refine treeChildren_sub h2 _ ?_
          rw [← h3]; exact List.mem_map_of_mem hy'

theorem genTrees_needed {st : State} {ts : List Tree} (h : genTrees st = .ok ts) :
    ∀ o ∈ (ts.map creationOrder).flatten, Needed st o := by
  intro o ho
  obtain ⟨L, hL, ho⟩ := List.mem_flatten.mp ho
  obtain ⟨t, ht, rfl⟩ := List.mem_map.mp hL
  unfold genTrees at h
  obtain ⟨r, hr, hf⟩ := (mapE_mem h).2 t ht
  cases hd : dictGet st.types r with
  | none => simp [hd] at hf
  | some o' =>
    simp only [hd] at hf
    obtain ⟨h1, h2⟩ := treeOf_spec _ _ _ _ hf
    rw [creationOrder, List.mem_reverse] at ho
    obtain ⟨x, hx, rfl⟩ := List.mem_map.mp ho
    refine bfs_needed [t] ?_ x hx
    intro y hy
    simp only [List.mem_singleton] at hy
    subst hy
    exact ⟨h2, by rw [h1]; exact .source r _ ((mem_sortS _ _).mp hr) hd⟩

theorem included_iff (obj : RObj) : included obj = false ↔ External obj := by
  have he : ∀ e : Option String, emitterOk e = false ↔ ∃ s, e = some s ∧ isRte s = false := by
    intro e; cases e <;> simp [emitterOk]
  have hn : ∀ e : Option String, truthy e = false ↔ e = none ∨ e = some "" := by
    intro e; cases e <;> simp [truthy]
  have hr : ∀ s : String, isRte s = false ↔ ¬ SpellsRte s := by
    intro s; simp [isRte, SpellsRte]
  cases obj <;> simp only [included, he, hn]
  case base =>
    constructor
    · intro h; rcases h with rfl | rfl
      · exact .baseNone _ _
      · exact .baseEmpty _ _
    · intro h; cases h <;> simp
  case refType => constructor <;> intro h <;> cases h
  all_goals constructor
  all_goals intro h
  all_goals first
    | (obtain ⟨s, rfl, hs⟩ := h; constructor; exact (hr _).mp hs)
    | (cases h; rename_i e he'; exact ⟨e, rfl, (hr _).mpr he'⟩)

/-- The types a declaration names: tree children, or base types without native declaration. -/
theorem genDecl_uses {objs : List RObj} {o : Oid} {obj : RObj} {d : Decl} {cs : List Oid}
    (ho : objs[o]? = some obj) (hc : treeChildren obj = .ok cs) (hd : genDecl objs o = .ok d) :
    ∀ c ∈ Decl.uses d, c ∈ cs ∨ ∃ obj', objs[c]? = some obj' ∧ included obj' = false := by
  have helem : ∀ t x c, elemText objs t = .ok x → x = .named c →
      t = .ref c ∨ ∃ obj', objs[c]? = some obj' ∧ included obj' = false := by
    intro t x c h hx
    subst hx
    unfold elemText at h
    split at h
    · simp at h; subst h; exact .inl rfl
    · split at h
      · rename_i b _ _ native hb
        simp only [Except.ok.injEq] at h
        split at h
        · simp at h
        · rename_i hnat
          simp only [TypeText.named.injEq] at h
          subst h
          exact .inr ⟨_, hb, by simpa [included] using hnat⟩
      · simp at h
  intro c hcu
  unfold genDecl at hd
  rw [ho] at hd
  cases obj with
  | base r n native => simp at hd; subst hd; simp [Decl.uses] at hcu
  | scalar r n s e b =>
    simp only [Except.ok.injEq, treeChildren] at hd hc; subst hd; subst hc
    simp only [Decl.uses] at hcu; exact .inl hcu
  | refType r n s i =>
    simp only [Except.ok.injEq, treeChildren] at hd hc; subst hd; subst hc
    simp only [Decl.uses] at hcu; exact .inl hcu
  | array r n s e el =>
    obtain ⟨nm, size, t⟩ := el
    simp only at hd
    obtain ⟨x, hx, rfl⟩ := map_ok hd
    cases x with
    | native s => simp [Decl.uses] at hcu
    | named c' =>
      simp only [Decl.uses, List.mem_singleton] at hcu
      subst hcu
      rcases helem t _ c hx rfl with rfl | h
      · simp only [treeChildren, Except.ok.injEq] at hc
        subst hc; exact .inl (by simp)
      · exact .inr h
  | record r n s e es =>
    simp only at hd
    obtain ⟨ms, hms, rfl⟩ := map_ok hd
    simp only [Decl.uses, List.mem_filterMap] at hcu
    obtain ⟨m, hm, hmc⟩ := hcu
    obtain ⟨el, hel, hx⟩ := (mapE_mem hms).2 m hm
    obtain ⟨x, hxe, rfl⟩ := map_ok hx
    clear hx
    cases x with
    | native s => simp at hmc
    | named c' =>
      simp only [Option.some.injEq] at hmc
      subst hmc
      rcases helem el.2 _ c' hxe rfl with h | h
      · left
        simp only [treeChildren, Except.ok.injEq] at hc
        subst hc
        refine List.mem_filterMap.mpr ⟨el, hel, ?_⟩
        rw [h]
      · exact .inr h
  | pointer r n s e t => simp at hd

end Verif.Impl
